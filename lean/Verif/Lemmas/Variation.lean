import Verif.Lemmas.Replace
import Verif.Lemmas.Interpolant
import Mathlib.Algebra.BigOperators.Intervals
import Mathlib.Algebra.Order.BigOperators.Group.Finset
import Mathlib.Tactic.Linarith
import Mathlib.Tactic.Ring

/-! Total variation along an axis. Used for C136. -/

set_option autoImplicit false
set_option linter.unusedSectionVars false

namespace Interpn

section
variable {K : Type} [Field K] [LinearOrder K] [IsStrictOrderedRing K] [FloorRing K]

/-- A sum of functions with slopes at most `M c` of coordinates that grow from 0 to 1 varies by at
most the sum of the `M c`. -/
theorem variation_le {n m : Nat} (H : Nat → K → K) (M : Nat → K) (φ : Nat → Nat → K)
    (h01 : ∀ j ≤ m, ∀ c < n, 0 ≤ φ j c ∧ φ j c ≤ 1) (hmono : ∀ j < m, ∀ c < n, φ j c ≤ φ (j + 1) c)
    (hH : ∀ c < n, ∀ s t, 0 ≤ s → s ≤ t → t ≤ 1 → |H c t - H c s| ≤ M c * (t - s)) :
    ∑ j ∈ Finset.range m, |∑ c ∈ Finset.range n, H c (φ (j + 1) c) -
      ∑ c ∈ Finset.range n, H c (φ j c)| ≤ ∑ c ∈ Finset.range n, M c := by
  have step : ∀ j ∈ Finset.range m, |∑ c ∈ Finset.range n, H c (φ (j + 1) c) -
      ∑ c ∈ Finset.range n, H c (φ j c)| ≤
      ∑ c ∈ Finset.range n, M c * (φ (j + 1) c - φ j c) := by
    intro j hj
    rw [Finset.mem_range] at hj
    rw [← Finset.sum_sub_distrib]
    refine (Finset.abs_sum_le_sum_abs _ _).trans (Finset.sum_le_sum fun c hc => ?_)
    rw [Finset.mem_range] at hc
    exact hH c hc _ _ (h01 j hj.le c hc).1 (hmono j hj c hc) (h01 (j + 1) hj c hc).2
  refine (Finset.sum_le_sum step).trans ?_
  rw [Finset.sum_comm]
  refine Finset.sum_le_sum fun c hc => ?_
  rw [Finset.mem_range] at hc
  rw [← Finset.mul_sum, Finset.sum_range_sub (fun j => φ j c)]
  have hM : 0 ≤ M c := by
    have := (abs_nonneg _).trans (hH c hc 0 1 le_rfl zero_le_one le_rfl)
    linarith
  have h1 := (h01 m le_rfl c hc).2
  have h0 := (h01 0 (Nat.zero_le _) c hc).1
  nlinarith

/-- Cells below `c` are passed, those above not reached. -/
theorem sum_cells {n c : Nat} (hc : c < n) (H : Nat → K → K) (f φ : Nat → K)
    (h0 : ∀ i, H i 0 = 0) (h1 : ∀ i < n, H i 1 = f (i + 1) - f i)
    (hlow : ∀ i < c, φ i = 1) (hhigh : ∀ i, c < i → φ i = 0) :
    ∑ i ∈ Finset.range n, H i (φ i) = f c - f 0 + H c (φ c) := by
  obtain ⟨r, rfl⟩ : ∃ r, n = (c + 1) + r := ⟨n - (c + 1), by omega⟩
  rw [Finset.sum_range_add, Finset.sum_range_succ]
  have e1 : ∑ i ∈ Finset.range c, H i (φ i) = f c - f 0 := by
    rw [← Finset.sum_range_sub]
    refine Finset.sum_congr rfl fun i hi => ?_
    rw [Finset.mem_range] at hi
    rw [hlow i hi, h1 i (by omega)]
  have e2 : ∑ i ∈ Finset.range r, H (c + 1 + i) (φ (c + 1 + i)) = 0 :=
    Finset.sum_eq_zero fun i _ => by rw [hhigh _ (by omega), h0]
  rw [e1, e2, add_zero]

/-- How much of cell `i` lies below `x`. -/
def passed (p : Nat → K) (i : Nat) (x : K) : K := max 0 (min 1 ((x - p i) / (p (i + 1) - p i)))

section
variable {n : Nat} {p : Nat → K}

theorem passed_mem (i : Nat) (x : K) : 0 ≤ passed p i x ∧ passed p i x ≤ 1 :=
  ⟨le_max_left _ _, max_le zero_le_one (min_le_left _ _)⟩

theorem passed_mono (hi : Incr n p) {i : Nat} (h : i + 1 < n) {x y : K} (hxy : x ≤ y) :
    passed p i x ≤ passed p i y := by
  have hw : 0 < p (i + 1) - p i := sub_pos.2 (hi i h)
  unfold passed
  gcongr

theorem passed_low (hi : Incr n p) {x : K} {c : Nat} (hc : InCell n p x c) (hx : InRange n p x)
    {i : Nat} (h : i < c) : passed p i x = 1 := by
  have hw : 0 < p (i + 1) - p i := sub_pos.2 (hi i (by have := hc.1; omega))
  have h1 : p (i + 1) ≤ p c := by
    rcases Nat.eq_or_lt_of_le (show i + 1 ≤ c from h) with e | h'
    · rw [e]
    · exact (hi.lt h' (by have := hc.1; omega)).le
  have := (inRange_of_inCell hc hx).1
  have : 1 ≤ (x - p i) / (p (i + 1) - p i) := by rw [le_div_iff₀ hw]; linarith
  rw [passed, min_eq_left this, max_eq_right zero_le_one]

theorem passed_high (hi : Incr n p) {x : K} {c : Nat} (hc : InCell n p x c) (hx : InRange n p x)
    {i : Nat} (hin : i + 1 < n) (h : c < i) : passed p i x = 0 := by
  have hw : 0 < p (i + 1) - p i := sub_pos.2 (hi i hin)
  have h1 : p (c + 1) ≤ p i := by
    rcases Nat.eq_or_lt_of_le (show c + 1 ≤ i from h) with e | h'
    · rw [e]
    · exact (hi.lt h' (by omega)).le
  have := (inRange_of_inCell hc hx).2
  have : (x - p i) / (p (i + 1) - p i) ≤ 0 := div_nonpos_of_nonpos_of_nonneg (by linarith) hw.le
  rw [passed, max_eq_left ((min_le_right _ _).trans this)]

theorem passed_cell (hi : Incr n p) {x : K} {c : Nat} (hc : InCell n p x c) (hx : InRange n p x) :
    passed p c x = (x - p c) / (p (c + 1) - p c) := by
  obtain ⟨t0, t1⟩ := weight_mem hi hc hx
  rw [passed, min_eq_right t1, max_eq_right t0]

/-- A rule that is `f c + H c t` in cell `c` has variation at most the sum of the bounds on the slopes
of `H c`. -/
theorem cells_variation (hi : Incr n p) {m : Nat} (f : Nat → K) (H : Nat → K → K) (M : Nat → K)
    (h0 : ∀ i, H i 0 = 0) (h1 : ∀ i, i + 1 < n → H i 1 = f (i + 1) - f i)
    (hH : ∀ c, c + 1 < n → ∀ s t, 0 ≤ s → s ≤ t → t ≤ 1 → |H c t - H c s| ≤ M c * (t - s))
    (z : Nat → K) (c : Nat → Nat) (hz : ∀ j < m, z j ≤ z (j + 1))
    (hc : ∀ j ≤ m, InCell n p (z j) (c j)) (hin : ∀ j ≤ m, InRange n p (z j)) :
    ∑ j ∈ Finset.range m, |(f (c (j + 1)) + H (c (j + 1))
        ((z (j + 1) - p (c (j + 1))) / (p (c (j + 1) + 1) - p (c (j + 1))))) -
      (f (c j) + H (c j) ((z j - p (c j)) / (p (c j + 1) - p (c j))))| ≤
      ∑ i ∈ Finset.range (n - 1), M i := by
  have key : ∀ j ≤ m, f (c j) + H (c j) ((z j - p (c j)) / (p (c j + 1) - p (c j))) =
      f 0 + ∑ i ∈ Finset.range (n - 1), H i (if i + 1 < n then passed p i (z j) else 0) := by
    intro j hj
    have hcj := (hc j hj).1
    rw [sum_cells (c := c j) (by omega) H f _ h0 (fun i h => h1 i (by omega))
      (fun i h => by rw [if_pos (by omega), passed_low hi (hc j hj) (hin j hj) h])
      (fun i h => by
        split
        · rename_i h'; exact passed_high hi (hc j hj) (hin j hj) h' h
        · rfl), if_pos hcj, passed_cell hi (hc j hj) (hin j hj)]
    ring
  have := variation_le (n := n - 1) (m := m) H M
    (fun j i => if i + 1 < n then passed p i (z j) else 0)
    (fun j _ i h => by simp only [show i + 1 < n by omega, if_true]; exact passed_mem _ _)
    (fun j hj i h => by
      simp only [show i + 1 < n by omega, if_true]; exact passed_mono hi (by omega) (hz j hj))
    (fun i h => hH i (by omega))
  refine le_trans (le_of_eq (Finset.sum_congr rfl fun j hj => ?_)) this
  rw [Finset.mem_range] at hj
  rw [key (j + 1) hj, key j hj.le, add_sub_add_left_eq_sub]

/-- Linear interpolation does not increase the variation. -/
theorem linPiece_variation (hi : Incr n p) {m : Nat} (f : Nat → K) (z : Nat → K) (c : Nat → Nat)
    (hz : ∀ j < m, z j ≤ z (j + 1)) (hc : ∀ j ≤ m, InCell n p (z j) (c j))
    (hin : ∀ j ≤ m, InRange n p (z j)) :
    ∑ j ∈ Finset.range m, |linPiece p f (c (j + 1)) (z (j + 1)) - linPiece p f (c j) (z j)| ≤
      ∑ i ∈ Finset.range (n - 1), |f (i + 1) - f i| :=
  cells_variation hi f (fun i t => t * (f (i + 1) - f i)) (fun i => |f (i + 1) - f i|)
    (fun i => zero_mul _) (fun i _ => one_mul _)
    (fun i _ s t _ hst _ => by
      rw [← sub_mul, abs_mul, abs_of_nonneg (sub_nonneg.2 hst), mul_comm]) z c hz hc hin

/-- Nor does picking values in the order of the nodes. -/
theorem pick_variation {m : Nat} (f : Nat → K) (c : Nat → Nat) (hz : ∀ j < m, c j ≤ c (j + 1))
    (hc : ∀ j ≤ m, c j < n) :
    ∑ j ∈ Finset.range m, |f (c (j + 1)) - f (c j)| ≤
      ∑ i ∈ Finset.range (n - 1), |f (i + 1) - f i| := by
  have key : ∀ j ≤ m, f (c j) = f 0 + ∑ i ∈ Finset.range (n - 1),
      (if i < c j then (1 : K) else 0) * (f (i + 1) - f i) := by
    intro j hj
    have hcj := hc j hj
    obtain ⟨r, hr⟩ : ∃ r, n - 1 = c j + r := ⟨n - 1 - c j, by omega⟩
    rw [hr, Finset.sum_range_add]
    have e1 : ∑ i ∈ Finset.range (c j), (if i < c j then (1 : K) else 0) * (f (i + 1) - f i) =
        f (c j) - f 0 := by
      rw [← Finset.sum_range_sub]
      refine Finset.sum_congr rfl fun i hi => ?_
      rw [if_pos (Finset.mem_range.1 hi), one_mul]
    rw [e1, Finset.sum_eq_zero fun i _ => by rw [if_neg (by omega), zero_mul]]
    ring
  have := variation_le (n := n - 1) (m := m) (fun i t => t * (f (i + 1) - f i))
    (fun i => |f (i + 1) - f i|) (fun j i => if i < c j then 1 else 0)
    (fun j _ i _ => by split <;> simp)
    (fun j hj i _ => by
      have := hz j hj
      split
      · rw [if_pos (by omega)]
      · split <;> simp)
    (fun i _ s t _ hst _ => by
      rw [← sub_mul, abs_mul, abs_of_nonneg (sub_nonneg.2 hst), mul_comm])
  refine le_trans (le_of_eq (Finset.sum_congr rfl fun j hj => ?_)) this
  rw [Finset.mem_range] at hj
  rw [key (j + 1) hj, key j hj.le, add_sub_add_left_eq_sub]

/-- The nearest node moves up with the observation. -/
theorem nearest_mono (hi : Incr n p) {x x' : K} (hx : x ≤ x') {i i' : Nat} (h : IsNearest n p x i)
    (h' : IsNearest n p x' i') : i ≤ i' := by
  by_contra hlt
  rw [not_le] at hlt
  have h1 := sq_lt_sq.2 (h.2.2 i' hlt)
  have h2 := sq_le_sq.2 (h'.2.1 i h.1)
  have h3 : p i' < p i := hi.lt hlt h.1
  nlinarith

theorem ratio_ge_one (hi : Incr n p) (hn : 4 ≤ n) {ρ : K} (hρ : MeshRatio n p ρ) : 1 ≤ ρ := by
  have h := hρ 0 (by omega)
  have w : 0 < p (0 + 1) - p 0 := sub_pos.2 (hi 0 (by omega))
  by_contra hlt
  rw [not_le] at hlt
  have w' : 0 < p (0 + 2) - p (0 + 1) := sub_pos.2 (hi (0 + 1) (by omega))
  have h1 := mul_lt_of_lt_one_left w hlt
  have h2 := mul_lt_of_lt_one_left w' hlt
  linarith [h.1, h.2]

/-! ### Cubic rule -/

/-- Rise and fall of the parts of a Hermite cubic that belong to the slopes. -/
theorem hermite_parts_lip {s t : K} (hs : 0 ≤ s) (hst : s ≤ t) (ht : t ≤ 1) :
    |t * (1 - t) ^ 2 - s * (1 - s) ^ 2| ≤ t - s ∧ |t ^ 2 * (1 - t) - s ^ 2 * (1 - s)| ≤ t - s := by
  have h0 : 0 ≤ t - s := sub_nonneg.2 hst
  have ht0 : 0 ≤ t := hs.trans hst
  have hs1 : s ≤ 1 := hst.trans ht
  have a1 : 0 ≤ t * (1 - t) := mul_nonneg ht0 (sub_nonneg.2 ht)
  have a2 : 0 ≤ s * (1 - s) := mul_nonneg hs (sub_nonneg.2 hs1)
  have a3 : 0 ≤ t * (1 - s) := mul_nonneg ht0 (sub_nonneg.2 hs1)
  have a4 : 0 ≤ s * (1 - t) := mul_nonneg hs (sub_nonneg.2 ht)
  have a5 : 0 ≤ (1 - t) * (1 - s) := mul_nonneg (sub_nonneg.2 ht) (sub_nonneg.2 hs1)
  have a6 : 0 ≤ t * s := mul_nonneg ht0 hs
  rw [show t * (1 - t) ^ 2 - s * (1 - s) ^ 2 =
      (t - s) * (1 - 2 * (t + s) + (t ^ 2 + t * s + s ^ 2)) by ring,
    show t ^ 2 * (1 - t) - s ^ 2 * (1 - s) = (t - s) * (t + s - (t ^ 2 + t * s + s ^ 2)) by ring,
    abs_mul, abs_mul, abs_of_nonneg h0]
  constructor
  · refine mul_le_of_le_one_right h0 (abs_le.2 ⟨?_, ?_⟩)
    · nlinarith [sq_nonneg (1 - t), sq_nonneg (1 - s)]
    · nlinarith
  · refine mul_le_of_le_one_right h0 (abs_le.2 ⟨?_, ?_⟩)
    · nlinarith
    · nlinarith [sq_nonneg (1 - t - s)]

/-- The slope at an inner node differs from the chords by little more than their own size. -/
theorem nodeSlope_width (hi : Incr n p) {ρ : K} (hρ1 : 1 ≤ ρ) (hρ : MeshRatio n p ρ) (f : Nat → K)
    {i : Nat} (h : i + 2 < n) :
    (p (i + 1) - p i) * |nodeSlope n p f (i + 1) - (f (i + 1) - f i) / (p (i + 1) - p i)| ≤
        ρ ^ 2 / (1 + ρ) * (|f (i + 1) - f i| + |f (i + 2) - f (i + 1)|) ∧
      (p (i + 2) - p (i + 1)) *
          |nodeSlope n p f (i + 1) - (f (i + 2) - f (i + 1)) / (p (i + 2) - p (i + 1))| ≤
        ρ ^ 2 / (1 + ρ) * (|f (i + 1) - f i| + |f (i + 2) - f (i + 1)|) := by
  have w1 : 0 < p (i + 1) - p i := sub_pos.2 (hi i (by omega))
  have w2 : 0 < p (i + 2) - p (i + 1) := sub_pos.2 (hi (i + 1) h)
  have r1 := weight_mul_le w1 w2 (hρ i h).1
  have r2 := weight_mul_le w2 w1 (hρ i h).2
  have q1 := (hρ i h).1
  have q2 := (hρ i h).2
  rw [nodeSlope_inner h, show p (i + 2) - p i = (p (i + 1) - p i) + (p (i + 2) - p (i + 1)) by ring]
  generalize p (i + 1) - p i = w at *
  generalize p (i + 2) - p (i + 1) = w' at *
  generalize f (i + 1) - f i = a at *
  generalize f (i + 2) - f (i + 1) = b at *
  have h0 : 0 ≤ ρ / (1 + ρ) := by positivity
  have bound : ∀ {w w' a b : K}, 0 < w → 0 < w' → w ≤ ρ * w' → w / (w + w') ≤ ρ / (1 + ρ) →
      |w * (w / (w + w') * (b / w' - a / w))| ≤ ρ ^ 2 / (1 + ρ) * (|a| + |b|) := by
    intro w w' a b hw hw' hr hq
    have e : w * (w / (w + w') * (b / w' - a / w)) = w / (w + w') * (w / w' * b - a) := by
      have : w + w' ≠ 0 := by positivity
      field_simp
    rw [e, abs_mul, abs_of_pos (by positivity : 0 < w / (w + w'))]
    have h1 : w / w' ≤ ρ := by rw [div_le_iff₀ hw']; exact hr
    have h2 : |w / w' * b - a| ≤ ρ * |b| + ρ * |a| := by
      refine (abs_sub _ _).trans ?_
      rw [abs_mul, abs_of_pos (by positivity : 0 < w / w')]
      have := mul_le_mul_of_nonneg_right h1 (abs_nonneg b)
      have := le_mul_of_one_le_left (abs_nonneg a) hρ1
      linarith
    calc w / (w + w') * |w / w' * b - a| ≤ ρ / (1 + ρ) * (ρ * |b| + ρ * |a|) :=
          mul_le_mul hq h2 (abs_nonneg _) h0
      _ = ρ ^ 2 / (1 + ρ) * (|a| + |b|) := by ring
  constructor
  · have e : (w * (b / w') + w' * (a / w)) / (w + w') - a / w = w / (w + w') * (b / w' - a / w) := by
      have : w + w' ≠ 0 := by positivity
      field_simp
      ring
    rw [e, ← abs_of_pos w1, ← abs_mul, abs_of_pos w1]
    exact bound w1 w2 q1 r1
  · have e : (w * (b / w') + w' * (a / w)) / (w + w') - b / w' =
        w' / (w' + w) * (a / w - b / w') := by
      have : w + w' ≠ 0 := by positivity
      have : w' + w ≠ 0 := by positivity
      field_simp
      ring
    rw [e, ← abs_of_pos w2, ← abs_mul, abs_of_pos w2, add_comm |a|]
    exact bound w2 w1 q2 r2

/-- Cubic interpolation multiplies the variation by at most `1 + 6 ρ²/(1 + ρ)`. -/
theorem cubicPiece_variation (hi : Incr n p) (hn : 4 ≤ n) (lin : Bool) {ρ : K} (hρ1 : 1 ≤ ρ)
    (hρ : MeshRatio n p ρ) {m : Nat} (f : Nat → K) (z : Nat → K) (c : Nat → Nat)
    (hz : ∀ j < m, z j ≤ z (j + 1)) (hc : ∀ j ≤ m, InCell n p (z j) (c j))
    (hin : ∀ j ≤ m, InRange n p (z j)) :
    ∑ j ∈ Finset.range m, |cubicPiece n p f lin (c (j + 1)) (z (j + 1)) -
        cubicPiece n p f lin (c j) (z j)| ≤
      (1 + 6 * ρ ^ 2 / (1 + ρ)) * ∑ i ∈ Finset.range (n - 1), |f (i + 1) - f i| := by
  let w : Nat → K := fun i => p (i + 1) - p i
  let s : Nat → K := fun i => (f (i + 1) - f i) / w i
  let d0 : Nat → K := fun i => w i * (nodeSlope n p f i - s i)
  let d1 : Nat → K := fun i => w i * (nodeSlope n p f (i + 1) - s i)
  have hw : ∀ i, i + 1 < n → 0 < w i := fun i h => sub_pos.2 (hi i h)
  have hv : ∀ j ≤ m, cubicPiece n p f lin (c j) (z j) = f (c j) +
      (fun i t => t * (f (i + 1) - f i) + (t * (1 - t) ^ 2 * d0 i - t ^ 2 * (1 - t) * d1 i)) (c j)
        ((z j - p (c j)) / (p (c j + 1) - p (c j))) := by
    intro j hj
    have hwj := hw _ (hc j hj).1
    have e : cubicPiece n p f lin (c j) (z j) = hermiteCubic (p (c j)) (p (c j + 1)) (f (c j))
        (f (c j + 1)) (nodeSlope n p f (c j)) (nodeSlope n p f (c j + 1)) (z j) := by
      unfold cubicPiece
      rw [if_neg fun h => not_lt.2 (hin j hj).1 h.2, if_neg fun h => not_lt.2 (hin j hj).2 h.2]
    have hs : w (c j) * s (c j) = f (c j + 1) - f (c j) := mul_div_cancel₀ _ hwj.ne'
    rw [e]
    unfold hermiteCubic
    simp only [d0, d1, mul_sub (w (c j)), hs]
    show _ = _
    generalize (z j - p (c j)) / (p (c j + 1) - p (c j)) = t
    simp only [w]
    ring
  have hL := cells_variation hi f
    (fun i t => t * (f (i + 1) - f i) + (t * (1 - t) ^ 2 * d0 i - t ^ 2 * (1 - t) * d1 i))
    (fun i => |f (i + 1) - f i| + (|d0 i| + |d1 i|)) (fun i => by ring) (fun i _ => by ring)
    (fun i _ a b h0 hab h1 => by
      obtain ⟨l1, l2⟩ := hermite_parts_lip h0 hab h1
      have hba := sub_nonneg.2 hab
      rw [show b * (f (i + 1) - f i) + (b * (1 - b) ^ 2 * d0 i - b ^ 2 * (1 - b) * d1 i) -
          (a * (f (i + 1) - f i) + (a * (1 - a) ^ 2 * d0 i - a ^ 2 * (1 - a) * d1 i)) =
          (b - a) * (f (i + 1) - f i) + ((b * (1 - b) ^ 2 - a * (1 - a) ^ 2) * d0 i -
            (b ^ 2 * (1 - b) - a ^ 2 * (1 - a)) * d1 i) by ring]
      refine (abs_add_le _ _).trans ?_
      have := abs_sub ((b * (1 - b) ^ 2 - a * (1 - a) ^ 2) * d0 i)
        ((b ^ 2 * (1 - b) - a ^ 2 * (1 - a)) * d1 i)
      rw [abs_mul _ (d0 i), abs_mul _ (d1 i)] at this
      rw [abs_mul, abs_of_nonneg hba]
      have := mul_le_mul_of_nonneg_right l1 (abs_nonneg (d0 i))
      have := mul_le_mul_of_nonneg_right l2 (abs_nonneg (d1 i))
      linarith) z c hz hc hin
  have hsum : ∑ j ∈ Finset.range m, |cubicPiece n p f lin (c (j + 1)) (z (j + 1)) -
      cubicPiece n p f lin (c j) (z j)| ≤
      ∑ i ∈ Finset.range (n - 1), (|f (i + 1) - f i| + (|d0 i| + |d1 i|)) := by
    refine le_trans (le_of_eq (Finset.sum_congr rfl fun j hj => ?_)) hL
    rw [Finset.mem_range] at hj
    rw [hv (j + 1) hj, hv j hj.le]
  refine hsum.trans ?_
  let E : Nat → K := fun i => ρ ^ 2 / (1 + ρ) * (|f (i + 1) - f i| + |f (i + 2) - f (i + 1)|)
  have hE : ∀ i, 0 ≤ E i := fun i => by positivity
  have b1 : ∀ i, i + 2 < n → |d1 i| ≤ E i := fun i h => by
    rw [abs_mul, abs_of_pos (hw i (by omega))]
    exact (nodeSlope_width hi hρ1 hρ f h).1
  have b0 : ∀ i, i + 2 < n → |d0 (i + 1)| ≤ E i := fun i h => by
    rw [abs_mul, abs_of_pos (hw (i + 1) h)]
    exact (nodeSlope_width hi hρ1 hρ f h).2
  have f0 : |d0 0| ≤ E 0 := by
    have : d0 0 = -d1 0 := by
      simp only [d0, d1]
      rw [nodeSlope_first (by omega)]
      show w 0 * (2 * s 0 - _ - s 0) = _
      ring
    rw [this, abs_neg]
    exact b1 0 (by omega)
  obtain ⟨r, rfl⟩ : ∃ r, n = r + 4 := ⟨n - 4, by omega⟩
  have f1 : |d1 (r + 2)| ≤ E (r + 1) := by
    have : d1 (r + 2) = -d0 (r + 2) := by
      simp only [d0, d1]
      rw [show r + 2 + 1 = (r + 1) + 2 from rfl, nodeSlope_last (by omega) (by omega)]
      show w (r + 2) * (2 * s (r + 2) - _ - s (r + 2)) = _
      ring
    rw [this, abs_neg]
    exact b0 (r + 1) (by omega)
  rw [show r + 4 - 1 = r + 3 from rfl, Finset.sum_add_distrib, Finset.sum_add_distrib]
  have s0 : ∑ i ∈ Finset.range (r + 3), |d0 i| ≤ ∑ i ∈ Finset.range (r + 2), E i + E 0 := by
    rw [Finset.sum_range_succ']
    exact add_le_add (Finset.sum_le_sum fun i hi => b0 i (by
      rw [Finset.mem_range] at hi; omega)) f0
  have s1 : ∑ i ∈ Finset.range (r + 3), |d1 i| ≤ ∑ i ∈ Finset.range (r + 2), E i + E (r + 1) := by
    rw [Finset.sum_range_succ]
    exact add_le_add (Finset.sum_le_sum fun i hi => b1 i (by
      rw [Finset.mem_range] at hi; omega)) f1
  have s2 : E 0 + E (r + 1) ≤ ∑ i ∈ Finset.range (r + 2), E i := by
    rw [Finset.sum_range_succ]
    have := Finset.single_le_sum (f := E) (fun i _ => hE i)
      (Finset.mem_range.2 (Nat.succ_pos r) : 0 ∈ Finset.range (r + 1))
    linarith
  have s3 : ∑ i ∈ Finset.range (r + 2), E i ≤
      ρ ^ 2 / (1 + ρ) * (2 * ∑ i ∈ Finset.range (r + 3), |f (i + 1) - f i|) := by
    rw [← Finset.mul_sum, Finset.sum_add_distrib]
    refine mul_le_mul_of_nonneg_left ?_ (by positivity)
    have h1 := Finset.sum_range_succ (fun i => |f (i + 1) - f i|) (r + 2)
    have h2 := Finset.sum_range_succ' (fun i => |f (i + 1) - f i|) (r + 2)
    have h3 := abs_nonneg (f (r + 2 + 1) - f (r + 2))
    have h4 := abs_nonneg (f (0 + 1) - f 0)
    have h5 : ∑ i ∈ Finset.range (r + 2), |f (i + 2) - f (i + 1)| =
      ∑ i ∈ Finset.range (r + 2), |f (i + 1 + 1) - f (i + 1)| := rfl
    linarith
  have e6 : (6 : K) * ρ ^ 2 / (1 + ρ) = 3 * (ρ ^ 2 / (1 + ρ)) * 2 := by ring
  rw [add_mul, one_mul, e6]
  linarith

end

/-! ### Several axes -/

/-- Signed sums of differences: a family of linear functionals whose largest absolute value is the
variation. -/
theorem variation_of_signs {n : Nat} {f : Nat → K} {B : K}
    (h : ∀ σ : {σ : Nat → K // ∀ i, |σ i| ≤ 1},
      |∑ i ∈ Finset.range n, σ.1 i * (f (i + 1) - f i)| ≤ B) :
    ∑ i ∈ Finset.range n, |f (i + 1) - f i| ≤ B := by
  have := (le_abs_self _).trans (h ⟨fun i => if 0 ≤ f (i + 1) - f i then 1 else -1, fun i => by
    dsimp only
    split <;> simp⟩)
  refine le_trans (le_of_eq (Finset.sum_congr rfl fun i _ => ?_)) this
  dsimp only
  split
  · rename_i h; rw [abs_of_nonneg h, one_mul]
  · rename_i h; rw [abs_of_neg (not_le.1 h), neg_one_mul]

theorem signs_of_variation {n : Nat} {f : Nat → K} {B : K}
    (h : ∑ i ∈ Finset.range n, |f (i + 1) - f i| ≤ B) (σ : Nat → K) (hσ : ∀ i, |σ i| ≤ 1) :
    |∑ i ∈ Finset.range n, σ i * (f (i + 1) - f i)| ≤ B := by
  refine (Finset.abs_sum_le_sum_abs _ _).trans (le_trans (Finset.sum_le_sum fun i _ => ?_) h)
  rw [abs_mul]
  exact mul_le_of_le_one_left (abs_nonneg _) (hσ i)

theorem signs_linear {n m : Nat} (A : Nat → (Nat → K) → K) (h : ∀ i ≤ m, LinearOn n (A i))
    (σ : Nat → K) :
    LinearOn n fun f => ∑ i ∈ Finset.range m, σ i * (A (i + 1) f - A i f) where
  congr f f' hf := Finset.sum_congr rfl fun i hi => by
    rw [Finset.mem_range] at hi
    rw [(h (i + 1) hi).congr f f' hf, (h i hi.le).congr f f' hf]
  add f f' := by
    rw [← Finset.sum_add_distrib]
    refine Finset.sum_congr rfl fun i hi => ?_
    rw [Finset.mem_range] at hi
    rw [(h (i + 1) hi).add, (h i hi.le).add]
    ring
  smul a f := by
    rw [Finset.mul_sum]
    refine Finset.sum_congr rfl fun i hi => ?_
    rw [Finset.mem_range] at hi
    rw [(h (i + 1) hi).smul, (h i hi.le).smul]
    ring

theorem eval_linear {n i : Nat} (h : i < n) : LinearOn (K := K) n fun f => f i :=
  ⟨fun _ _ hf => hf i h, fun _ _ => rfl, fun _ _ => rfl⟩

/-- If the rules `A i` of axis `j` multiply the variation by at most `C`, so do they in a table whose
other axes are treated by linear rules of size `Λ`, up to the factor `Λ` for each. -/
theorem axisByAxis_variation {Λ C : K} (hΛ : 0 ≤ Λ) {N : Nat} {n : Fin N → Nat}
    (hn : ∀ k, 0 < n k) (op : Fin N → (Nat → K) → K) (hop : ∀ k, LinearOn (n k) (op k))
    (h1 : ∀ k f ε, (∀ i < n k, |f i| ≤ ε) → |op k f| ≤ Λ * ε) (j : Fin N) {m : Nat}
    (A : Nat → (Nat → K) → K) (hA : ∀ i ≤ m, LinearOn (n j) (A i))
    (hC : ∀ f, ∑ i ∈ Finset.range m, |A (i + 1) f - A i f| ≤
      C * ∑ i ∈ Finset.range (n j - 1), |f (i + 1) - f i|) (hC0 : 0 ≤ C)
    (g : (Fin N → Nat) → K) (V : K)
    (hg : ∀ loc : Fin N → Nat, (∀ k, loc k < n k) → ∑ i ∈ Finset.range (n j - 1),
      |g (Function.update loc j (i + 1)) - g (Function.update loc j i)| ≤ V) :
    ∑ i ∈ Finset.range m, |axisByAxis (Function.update op j (A (i + 1))) g -
      axisByAxis (Function.update op j (A i)) g| ≤ C * (Λ ^ (N - 1) * V) := by
  obtain ⟨f, hf⟩ := axisByAxis_axis j op hop g
  have e1 : ∀ i ∈ Finset.range m, |axisByAxis (Function.update op j (A (i + 1))) g -
      axisByAxis (Function.update op j (A i)) g| = |A (i + 1) f - A i f| := by
    intro i hi
    rw [Finset.mem_range] at hi
    rw [hf _ (hA (i + 1) hi), hf _ (hA i hi.le)]
  rw [Finset.sum_congr rfl e1]
  refine variation_of_signs (f := fun i => A i f) fun σ => ?_
  have hT := signs_linear A hA σ.1
  have hop' : LinearOn (n j) fun f => op j f +
      ∑ i ∈ Finset.range m, σ.1 i * (A (i + 1) f - A i f) :=
    ⟨fun f f' h => by rw [(hop j).congr f f' h, hT.congr f f' h],
      fun f f' => by rw [(hop j).add, hT.add]; ring, fun a f => by rw [(hop j).smul, hT.smul]; ring⟩
  have := axisByAxis_replace (C := C) hΛ n op (Function.update op j fun f => op j f +
      ∑ i ∈ Finset.range m, σ.1 i * (A (i + 1) f - A i f)) j
    (I := {σ : Nat → K // ∀ i, |σ i| ≤ 1})
    (fun σ f => ∑ i ∈ Finset.range (n j - 1), σ.1 i * (f (i + 1) - f i)) g V hn hop
    (fun σ => signs_linear (fun i f => f i)
      (fun i hi => eval_linear (by have := hn j; omega)) σ.1) h1
    (fun k hk => Function.update_of_ne hk _ _)
    (fun f B h => by
      rw [Function.update_self, add_sub_cancel_left]
      refine (signs_of_variation (f := fun i => A i f) (hC f) σ.1 σ.2).trans ?_
      exact mul_le_mul_of_nonneg_left (variation_of_signs h) hC0)
    (fun loc hl σ => signs_of_variation (f := fun m => g (Function.update loc j m)) (hg loc hl) σ.1
      σ.2)
  rw [hf _ hop'] at this
  have e2 := hf _ (hop j)
  rw [Function.update_eq_self] at e2
  rwa [e2, add_sub_cancel_left] at this

end

end Interpn
