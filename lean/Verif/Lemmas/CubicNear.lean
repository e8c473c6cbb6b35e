import Verif.Props.RoundingCubicRegular

/-! The cubic rule at observations outside the grid range: amplification of differences, shape of the
footprint, and sensitivity to the position. -/

set_option autoImplicit false
set_option linter.unusedSectionVars false

namespace Interpn

section
variable {K : Type} [Field K] [LinearOrder K] [IsStrictOrderedRing K] [FloorRing K]

/-- The slope at the end of an end cell, times the width of the cell. -/
theorem endSlope_bound {s ρ F1 F2 F3 ε : K} (hρ : 1 ≤ ρ) (hs : 0 < s) (hsρ : s ≤ ρ) (h1 : |F1| ≤ ε)
    (h2 : |F2| ≤ ε) (h3 : |F3| ≤ ε) :
    |2 * (F2 - F1) - (s ^ 2 * (F3 - F2) + (F2 - F1)) / (1 + s)| ≤ 6 * ρ * ε := by
  have hε : 0 ≤ ε := (abs_nonneg _).trans h1
  have h1 := abs_le.1 h1
  have h2 := abs_le.1 h2
  have h3 := abs_le.1 h3
  have d1 : |F2 - F1| ≤ 2 * ε := by rw [abs_le]; constructor <;> linarith
  have d2 : |F3 - F2| ≤ 2 * ε := by rw [abs_le]; constructor <;> linarith
  have a1 : |s ^ 2 * (F3 - F2) + (F2 - F1)| ≤ 2 * ρ * ε * (1 + s) := by
    refine (abs_add_le _ _).trans ?_
    rw [abs_mul, abs_of_nonneg (sq_nonneg s)]
    have b1 : s ^ 2 * |F3 - F2| ≤ s * ρ * (2 * ε) := by
      rw [sq]; gcongr
    nlinarith
  have a2 : |(s ^ 2 * (F3 - F2) + (F2 - F1)) / (1 + s)| ≤ 2 * ρ * ε := by
    rw [abs_div, abs_of_pos (show 0 < 1 + s by linarith), div_le_iff₀ (by linarith)]
    exact a1
  refine (abs_sub _ _).trans ?_
  rw [abs_mul, abs_of_pos (show (0 : K) < 2 by norm_num)]
  nlinarith

/-- The quadratic of an end cell, or its tangent, outside. -/
theorem endPiece_bound {t k F1 F2 ε ρ lam : K} (hρ : 1 ≤ ρ) (ht : 0 ≤ t) (htl : t ≤ lam)
    (h1 : |F1| ≤ ε) (h2 : |F2| ≤ ε) (hk : |k| ≤ 6 * ρ * ε) :
    |F1 - t * k| ≤ (1 + 8 * ρ * (lam * (1 + lam))) * ε ∧
    |F1 - t * k + t ^ 2 * (F2 - F1 - k)| ≤ (1 + 8 * ρ * (lam * (1 + lam))) * ε := by
  have hε : 0 ≤ ε := (abs_nonneg _).trans h1
  have hlam : 0 ≤ lam := ht.trans htl
  have a1 : |t * k| ≤ lam * (6 * ρ * ε) := by
    rw [abs_mul, abs_of_nonneg ht]; gcongr
  have a2 : |t ^ 2 * (F2 - F1 - k)| ≤ lam ^ 2 * (8 * ρ * ε) := by
    rw [abs_mul, abs_of_nonneg (sq_nonneg t)]
    have : |F2 - F1 - k| ≤ 8 * ρ * ε := by
      have := abs_sub (F2 - F1) k
      have := abs_sub F2 F1
      nlinarith
    gcongr
  have b1 := abs_sub F1 (t * k)
  have b2 := abs_add_le (F1 - t * k) (t ^ 2 * (F2 - F1 - k))
  have p1 : 0 ≤ lam ^ 2 * (8 * ρ * ε) := by positivity
  have p2 : 0 ≤ lam * (2 * ρ * ε) := by positivity
  constructor <;> nlinarith

variable {n : Nat} {p : Nat → K} {x : K} {c : Nat}

/-- Near the grid range the cubic rule amplifies differences by at most
`1 + ρ²/(2 (1 + ρ)) + 8 ρ λ (1 + λ)`. -/
theorem cubicPiece_size_near (hi : Incr n p) (hn : 4 ≤ n) (lin : Bool) (hc : InCell n p x c) {lam : K}
    (hlam : 0 ≤ lam) (hx : NearRange n p lam x) {ρ : K} (hρ1 : 1 ≤ ρ) (hρ : MeshRatio n p ρ)
    {f : Nat → K} {ε : K} (h : ∀ j, j < n ∧ c ≤ j + 1 ∧ j ≤ c + 2 → |f j| ≤ ε) :
    |cubicPiece n p f lin c x| ≤ (1 + ρ ^ 2 / (2 * (1 + ρ)) + 8 * ρ * (lam * (1 + lam))) * ε := by
  have hε : 0 ≤ ε := (abs_nonneg _).trans (h c ⟨by have := hc.1; omega, by omega, by omega⟩)
  have hbig : 0 ≤ ρ ^ 2 / (2 * (1 + ρ)) * ε := by positivity
  have hbig2 : 0 ≤ 8 * ρ * (lam * (1 + lam)) * ε := by positivity
  have hc1 := hc.1
  by_cases hr : InRange n p x
  · have := cubicPiece_bound hi hn lin hc hr hρ (f := f) (Bi := ε) (Bo := ε)
      (h c ⟨by have := hc.1; omega, by omega, by omega⟩) (h (c + 1) ⟨hc.1, by omega, by omega⟩)
      (fun j h1 h2 h3 => h j ⟨h1, h2, h3⟩)
    refine this.trans ?_
    have e : ρ ^ 2 / (2 * (1 + ρ)) = ρ ^ 2 / (4 * (1 + ρ)) + ρ ^ 2 / (4 * (1 + ρ)) := by
      field_simp; norm_num
    rw [e]
    linarith
  have hwt := weight_nearRange hi hlam hc hx
  rcases lt_or_ge x (p 0) with hlow | hlow
  · -- below the grid
    have h0 : c = 0 := by
      rcases hc.2.1 with h | h
      · exact h
      · have := Incr.le hi (Nat.zero_le c) (by omega); linarith
    subst h0
    simp only [zero_add] at hwt hc1
    have hw : 0 < p 1 - p 0 := sub_pos.2 (hi 0 hc1)
    have hw2 : 0 < p 2 - p 1 := sub_pos.2 (hi 1 (by omega))
    have hk : (p 1 - p 0) * nodeSlope n p f 0 = 2 * (f 1 - f 0) -
        (((p 1 - p 0) / (p 2 - p 1)) ^ 2 * (f 2 - f 1) + (f 1 - f 0)) /
          (1 + (p 1 - p 0) / (p 2 - p 1)) := by
      rw [nodeSlope_first (by omega), nodeSlope_inner (i := 0) (by omega)]
      simp only [zero_add]
      have hw3 : 0 < p 2 - p 0 := by linarith
      have e : 1 + (p 1 - p 0) / (p 2 - p 1) = (p 2 - p 0) / (p 2 - p 1) := by field_simp; ring
      rw [e]
      field_simp
    have hkb := endSlope_bound hρ1 (div_pos hw hw2) ((div_le_iff₀ hw2).2 (hρ 0 (by omega)).1)
      (h 0 ⟨by omega, by omega, by omega⟩) (h 1 ⟨by omega, by omega, by omega⟩)
      (h 2 ⟨by omega, by omega, by omega⟩)
    rw [← hk] at hkb
    have ht0 : 0 ≤ -((x - p 0) / (p 1 - p 0)) := by
      rw [neg_nonneg]; exact div_nonpos_of_nonpos_of_nonneg (by linarith) hw.le
    have key := endPiece_bound hρ1 ht0 (by linarith [hwt.1] : _ ≤ lam)
      (h 0 ⟨by omega, by omega, by omega⟩) (h 1 ⟨by omega, by omega, by omega⟩) hkb
    unfold cubicPiece
    have hfin : ∀ z : K, |z| ≤ (1 + 8 * ρ * (lam * (1 + lam))) * ε →
        |z| ≤ (1 + ρ ^ 2 / (2 * (1 + ρ)) + 8 * ρ * (lam * (1 + lam))) * ε := fun z hz => by linarith
    by_cases hl : lin = true
    · rw [if_pos ⟨hl, hlow⟩]
      apply hfin
      refine le_of_eq_of_le (congrArg _ ?_) key.1
      field_simp
      ring
    · rw [if_neg (fun hh => hl hh.1), if_neg (fun hh => hl hh.1)]
      apply hfin
      refine le_of_eq_of_le (congrArg _ ?_) key.2
      have hm1 : nodeSlope n p f 1 = 2 * ((f 1 - f 0) / (p 1 - p 0)) - nodeSlope n p f 0 := by
        rw [nodeSlope_first (by omega)]; ring
      unfold hermiteCubic
      simp only [zero_add]
      rw [hm1]
      generalize nodeSlope n p f 0 = m
      field_simp
      ring
  · -- above the grid
    have hhigh : p (n - 1) < x := by
      by_contra hh
      exact hr ⟨hlow, not_lt.1 hh⟩
    have h0 : c + 2 = n := by
      rcases hc.2.2 with h | h
      · exact h
      · have := Incr.le hi (show c + 1 ≤ n - 1 by omega) (by omega); linarith
    obtain ⟨d, rfl⟩ : ∃ d, c = d + 1 := ⟨c - 1, by omega⟩
    have en : n - 1 = d + 2 := by omega
    rw [en] at hhigh
    simp only [show d + 1 + 1 = d + 2 from rfl] at hwt hc1 ⊢
    have hw : 0 < p (d + 2) - p (d + 1) := sub_pos.2 (hi (d + 1) (by omega))
    have hw2 : 0 < p (d + 1) - p d := sub_pos.2 (hi d (by omega))
    have hk : (p (d + 2) - p (d + 1)) * -nodeSlope n p f (d + 2) = 2 * (f (d + 1) - f (d + 2)) -
        (((p (d + 2) - p (d + 1)) / (p (d + 1) - p d)) ^ 2 * (f d - f (d + 1)) +
          (f (d + 1) - f (d + 2))) / (1 + (p (d + 2) - p (d + 1)) / (p (d + 1) - p d)) := by
      rw [nodeSlope_last (i := d + 1) (by omega) (by omega), nodeSlope_inner (i := d) (by omega)]
      simp only [show d + 1 + 1 = d + 2 from rfl]
      have hw3 : 0 < p (d + 2) - p d := by linarith
      have e : 1 + (p (d + 2) - p (d + 1)) / (p (d + 1) - p d) =
          (p (d + 2) - p d) / (p (d + 1) - p d) := by field_simp; ring
      rw [e]
      field_simp
      ring
    have hkb := endSlope_bound hρ1 (div_pos hw hw2) ((div_le_iff₀ hw2).2 (hρ d (by omega)).2)
      (h (d + 2) ⟨by omega, by omega, by omega⟩) (h (d + 1) ⟨by omega, by omega, by omega⟩)
      (h d ⟨by omega, by omega, by omega⟩)
    rw [← hk] at hkb
    have ht0 : 0 ≤ (x - p (d + 1)) / (p (d + 2) - p (d + 1)) - 1 := by
      rw [sub_nonneg, one_le_div hw]; linarith
    have key := endPiece_bound hρ1 ht0 (by linarith [hwt.2] : _ ≤ lam)
      (h (d + 2) ⟨by omega, by omega, by omega⟩) (h (d + 1) ⟨by omega, by omega, by omega⟩) hkb
    unfold cubicPiece
    have hfin : ∀ z : K, |z| ≤ (1 + 8 * ρ * (lam * (1 + lam))) * ε →
        |z| ≤ (1 + ρ ^ 2 / (2 * (1 + ρ)) + 8 * ρ * (lam * (1 + lam))) * ε := fun z hz => by linarith
    rw [if_neg (fun hh => absurd hh.2 (not_lt.2 hlow))]
    by_cases hl : lin = true
    · rw [en, if_pos ⟨hl, hhigh⟩]
      apply hfin
      refine le_of_eq_of_le (congrArg _ ?_) key.1
      field_simp
      ring
    · rw [if_neg (fun hh => hl hh.1)]
      apply hfin
      refine le_of_eq_of_le (congrArg _ ?_) key.2
      have hm1 : nodeSlope n p f (d + 1) =
          2 * ((f (d + 2) - f (d + 1)) / (p (d + 2) - p (d + 1))) - nodeSlope n p f (d + 2) := by
        rw [nodeSlope_last (i := d + 1) (by omega) (by omega)]; ring
      unfold hermiteCubic
      simp only [show d + 1 + 1 = d + 2 from rfl]
      rw [hm1]
      generalize nodeSlope n p f (d + 2) = m
      field_simp
      ring

theorem cubicPiece_lip_near (hi : Incr n p) (hn : 4 ≤ n) (lin : Bool) (hc : InCell n p x c) {lam : K}
    (hlam : 0 ≤ lam) (hx : NearRange n p lam x) {ρ : K} (hρ1 : 1 ≤ ρ) (hρ : MeshRatio n p ρ)
    {f f' : Nat → K} {ε : K} (h : ∀ j, j < n ∧ c ≤ j + 1 ∧ j ≤ c + 2 → |f j - f' j| ≤ ε) :
    |cubicPiece n p f lin c x - cubicPiece n p f' lin c x| ≤
      (1 + ρ ^ 2 / (2 * (1 + ρ)) + 8 * ρ * (lam * (1 + lam))) * ε := by
  rw [← cubicPiece_sub hn lin hc.1]
  exact cubicPiece_size_near hi hn lin hc hlam hx hρ1 hρ h

/-- The footprint of an observation near the grid range. -/
theorem cellShape_of_near (h4 : 4 ≤ n) (hi : Incr n p) {ρ lam : K} (hlam : 0 ≤ lam)
    (hρ : MeshRatio n p ρ) (hx : NearRange n p lam x) {b : Nat} (hb : b ≤ n)
    (hbel : ∀ i < n, p i < x ↔ i < b) :
    CellShape (fun q : Fin 4 => p (min (b - 2) (n - 4) + q.val)) x ρ (1 + lam)
      (satRectilinear n b) := by
  set o := min (b - 2) (n - 4) with ho
  have ho4 : o + 4 ≤ n := by omega
  have i0 := hi o (by omega)
  have i1 := hi (o + 1) (by omega)
  have i2 := hi (o + 2) (by omega)
  have r0 := hρ o (by omega)
  have r1 := hρ (o + 1) (by omega)
  refine ⟨i0, i1, i2, r0.1, r0.2, r1.1, r1.2, fun hs => ?_, fun hs => ?_, fun hs => ?_⟩
  · have hb1 : b ≤ 1 := by
      unfold satRectilinear at hs
      by_contra hc
      rw [if_neg (by omega), if_neg (by omega)] at hs
      split_ifs at hs <;> rcases hs with h | h <;> cases h
    have hx1 : x ≤ p 1 := not_lt.1 fun h => by have := (hbel 1 (by omega)).1 h; omega
    have o0 : o = 0 := by omega
    have hx0 := hx.1
    rw [o0] at i0 ⊢
    show |x - p (0 + 1)| ≤ (1 + lam) * (p (0 + 1) - p (0 + 0))
    simp only [zero_add] at *
    have : 0 ≤ lam * (p 1 - p 0) := mul_nonneg hlam (by linarith)
    rw [abs_le]
    constructor <;> linarith
  · have hb1 : 2 ≤ b ∧ b + 2 ≤ n := by
      unfold satRectilinear at hs
      split_ifs at hs
      omega
    have ob : o + 2 = b := by omega
    have h1 := (hbel (o + 1) (by omega)).2 (by omega)
    have h2 : x ≤ p (o + 2) := not_lt.1 fun h => by
      have := (hbel (o + 2) (by omega)).1 h; omega
    show |x - p (o + 1)| ≤ (1 + lam) * (p (o + 2) - p (o + 1))
    have : 0 ≤ lam * (p (o + 2) - p (o + 1)) := mul_nonneg hlam (sub_nonneg.2 i1.le)
    rw [abs_le]
    constructor <;> linarith
  · have hb1 : n ≤ b + 1 := by
      unfold satRectilinear at hs
      by_contra hc
      rw [if_neg (show ¬ b = n by omega), if_neg (show ¬ b + 1 = n by omega)] at hs
      split_ifs at hs <;> rcases hs with h | h <;> cases h
    have h1 := (hbel (o + 2) (by omega)).2 (by omega)
    have h2 := hx.2
    rw [show n - 1 = o + 3 by omega, show n - 2 = o + 2 by omega] at h2
    show |x - p (o + 2)| ≤ (1 + lam) * (p (o + 3) - p (o + 2))
    have : 0 ≤ lam * (p (o + 3) - p (o + 2)) := mul_nonneg hlam (sub_nonneg.2 i2.le)
    rw [abs_le]
    constructor <;> linarith

/-! ### Regular axes -/

/-- Evaluating the piece of a slightly wrong cell at a slightly wrong position, near the range. -/
theorem regPiece_close_near {dim : Nat} (h4 : 4 ≤ dim) (lin : Bool) {f : Nat → K} {B : K}
    (hf : ∀ i < dim, |f i| ≤ B) {q q' r ω δ lam : K} (hlam : 0 ≤ lam) (hq0 : -lam ≤ q)
    (hq1 : q ≤ ((dim - 1 : Nat) : K) + lam)
    (hq' : |q' - q| ≤ δ) (hp : |r - q| ≤ ω) (hδ : δ < 1) :
    |regPiece dim lin f ⌊q'⌋ r - regPiece dim lin f ⌊q⌋ q| ≤
      57 * (1 + (lam + (ω + δ))) ^ 2 * B * (ω + 2 * δ) := by
  have hω0 : 0 ≤ ω := (abs_nonneg _).trans hp
  have hδ0 : 0 ≤ δ := (abs_nonneg _).trans hq'
  have hB : 0 ≤ B := (abs_nonneg _).trans (hf 0 (by omega))
  have hv : ∀ (z : Int) (i : Fin 4), |f (clampIdx (z - 1) (dim - 4) + i.val)| ≤ B := fun z i =>
    hf _ (by have := clampIdx_le (z - 1) (dim - 4); have := i.isLt; omega)
  set E := lam + (ω + δ) with hE
  have hr : (1 : K) ≤ 1 + E := by linarith
  have hL : 0 ≤ 57 * (1 + E) ^ 2 * B := by positivity
  have lip : ∀ (z : Int) {a b : K}, (z : K) - E ≤ a → a ≤ z + 1 + E → -E ≤ a →
      a ≤ ((dim - 1 : Nat) : K) + E → (z : K) - E ≤ b → b ≤ z + 1 + E →
      -E ≤ b → b ≤ ((dim - 1 : Nat) : K) + E →
      |regPiece dim lin f z a - regPiece dim lin f z b| ≤ 57 * (1 + E) ^ 2 * B * |a - b| := by
    intro z a b a1 a2 a3 a4 b1 b2 b3 b4
    have := innerRegular_lip (v := fun p : Fin 4 => f (clampIdx (z - 1) (dim - 4) + p.val)) (B := B)
      (lin := lin) hr (hv z) (reach_of_near h4 a1 a2 a3 a4)
      (reach_of_near h4 b1 b2 b3 b4)
    rw [sub_sub_sub_cancel_right] at this
    exact this
  have hq'' := abs_le.1 hq'
  have hp' := abs_le.1 hp
  have fq := Int.floor_le q
  have lq := Int.lt_floor_add_one q
  have fq' := Int.floor_le q'
  have lq' := Int.lt_floor_add_one q'
  have hmul : ∀ {a b : K}, |a| ≤ b → 57 * (1 + E) ^ 2 * B * |a| ≤
      57 * (1 + E) ^ 2 * B * b := fun h => mul_le_mul_of_nonneg_left h hL
  -- the same rule
  have same : (∀ a, regPiece dim lin f ⌊q'⌋ a = regPiece dim lin f ⌊q⌋ a) →
      |regPiece dim lin f ⌊q'⌋ r - regPiece dim lin f ⌊q⌋ q| ≤
        57 * (1 + E) ^ 2 * B * (ω + 2 * δ) := by
    intro hs
    rw [hs]
    have l1 := lip ⌊q⌋ (a := r) (b := q) (by linarith) (by linarith) (by linarith) (by linarith)
      (by linarith) (by linarith) (by linarith) (by linarith)
    exact l1.trans (hmul (hp.trans (by linarith)))
  have sameLow : ⌊q'⌋ < 0 → ⌊q⌋ < 0 →
      ∀ a, regPiece dim lin f ⌊q'⌋ a = regPiece dim lin f ⌊q⌋ a := fun h1 h2 a => by
    have c1 : clampIdx (⌊q'⌋ - 1) (dim - 4) = clampIdx (⌊q⌋ - 1) (dim - 4) := by
      unfold clampIdx; omega
    have c2 : satRegular dim ⌊q'⌋ = satRegular dim ⌊q⌋ := by
      unfold satRegular
      rw [if_pos h1, if_pos h2]
    unfold regPiece
    rw [c1, c2]
  have sameHigh : (dim : Int) - 1 ≤ ⌊q'⌋ → (dim : Int) - 1 ≤ ⌊q⌋ →
      ∀ a, regPiece dim lin f ⌊q'⌋ a = regPiece dim lin f ⌊q⌋ a := fun h1 h2 a => by
    have c1 : clampIdx (⌊q'⌋ - 1) (dim - 4) = clampIdx (⌊q⌋ - 1) (dim - 4) := by
      unfold clampIdx; omega
    have c2 : satRegular dim ⌊q'⌋ = satRegular dim ⌊q⌋ := by
      unfold satRegular
      rw [if_neg (by omega), if_neg (by omega), if_pos (by omega), if_neg (by omega),
        if_neg (by omega), if_pos (by omega)]
    unfold regPiece
    rw [c1, c2]
  -- crossing a node
  have cross : ∀ m : Nat, m < dim → ∀ z z' : Int, (z = m ∧ z' = (m : Int) - 1 ∨
      z' = m ∧ z = (m : Int) - 1) → ⌊q⌋ = z → ⌊q'⌋ = z' →
      |regPiece dim lin f ⌊q'⌋ r - regPiece dim lin f ⌊q⌋ q| ≤
        57 * (1 + E) ^ 2 * B * (ω + 2 * δ) := by
    intro m hm z z' hzz hz hz'
    have hj := regPiece_node h4 lin f hm
    have e1 : regPiece dim lin f ⌊q'⌋ m = regPiece dim lin f ⌊q⌋ m := by
      rw [hz, hz']
      rcases hzz with ⟨rfl, rfl⟩ | ⟨rfl, rfl⟩
      · exact hj.2.trans hj.1.symm
      · exact hj.1.trans hj.2.symm
    have hm0 : (0 : K) ≤ m := Nat.cast_nonneg m
    have hm1 : (m : K) ≤ ((dim - 1 : Nat) : K) := by exact_mod_cast (by omega : m ≤ dim - 1)
    have hmq : |(m : K) - q| ≤ δ := by
      rw [hz] at fq lq
      rw [hz'] at fq' lq'
      rcases hzz with ⟨rfl, rfl⟩ | ⟨rfl, rfl⟩ <;> push_cast at fq lq fq' lq' <;> rw [abs_le] <;>
        constructor <;> linarith
    have hmq' : |(m : K) - q'| ≤ δ := by
      rw [hz] at fq lq
      rw [hz'] at fq' lq'
      rcases hzz with ⟨rfl, rfl⟩ | ⟨rfl, rfl⟩ <;> push_cast at fq lq fq' lq' <;> rw [abs_le] <;>
        constructor <;> linarith
    have hmb := abs_le.1 hmq
    have hmb' := abs_le.1 hmq'
    have l1 := lip ⌊q'⌋ (a := r) (b := m) (by linarith) (by linarith) (by linarith) (by linarith)
      (by linarith) (by linarith) (by linarith) (by linarith)
    have l2 := lip ⌊q⌋ (a := m) (b := q) (by linarith) (by linarith) (by linarith) (by linarith)
      (by linarith) (by linarith) (by linarith) (by linarith)
    have b1 : |r - (m : K)| ≤ ω + δ := by rw [abs_le]; constructor <;> linarith
    have := abs_sub_le (regPiece dim lin f ⌊q'⌋ r) (regPiece dim lin f ⌊q'⌋ m)
      (regPiece dim lin f ⌊q⌋ q)
    rw [e1] at l1 this
    have c1 := hmul b1
    have c2 := hmul hmq
    rw [show 57 * (1 + E) ^ 2 * B * (ω + 2 * δ) = 57 * (1 + E) ^ 2 * B * (ω + δ) +
      57 * (1 + E) ^ 2 * B * δ by ring]
    linarith
  rcases lt_trichotomy ⌊q'⌋ ⌊q⌋ with hz | hz | hz
  · have hz' : ⌊q'⌋ = ⌊q⌋ - 1 := by
      have : (⌊q⌋ : K) < ⌊q'⌋ + 2 := by linarith
      have : ⌊q⌋ < ⌊q'⌋ + 2 := by exact_mod_cast this
      omega
    by_cases h1 : ⌊q⌋ < 0
    · exact same (sameLow (by omega) h1)
    by_cases h2 : (dim : Int) - 1 ≤ ⌊q'⌋
    · exact same (sameHigh h2 (by omega))
    exact cross ⌊q⌋.toNat (by omega) _ _ (.inl ⟨by omega, by omega⟩) rfl rfl
  · exact same fun a => by rw [hz]
  · have hz' : ⌊q'⌋ = ⌊q⌋ + 1 := by
      have : (⌊q'⌋ : K) < ⌊q⌋ + 2 := by linarith
      have : ⌊q'⌋ < ⌊q⌋ + 2 := by exact_mod_cast this
      omega
    by_cases h1 : ⌊q'⌋ < 0
    · exact same (sameLow h1 (by omega))
    by_cases h2 : (dim : Int) - 1 ≤ ⌊q⌋
    · exact same (sameHigh (by omega) h2)
    exact cross ⌊q'⌋.toNat (by omega) _ _ (.inr ⟨by omega, by omega⟩) rfl rfl

end

section
open FloatOps
attribute [local instance] exactOps
variable {T K : Type} [FloatOps T] [Field K] [LinearOrder K] [IsStrictOrderedRing K] [FloorRing K]
  {val : T → K} {fin : T → Prop} {u η Ω : K}

/-- `rounds_cubic_axis` for observations outside the grid range by at most `lam` steps. -/
theorem rounds_cubic_axis_near (h : Rounds val fin u η Ω) {n : Nat} (hwh : ExactWhole val fin n)
    {dim : Nat} (hdn : dim ≤ n) (h4 : 4 ≤ dim) {s st x : T} (hs : fin s) (hst : fin st)
    (hx : fin x) (hpos : 0 < val st) {A lam : K} (hlam : 0 ≤ lam) (hA0 : |val s| ≤ A)
    (hA1 : |val s + val st * ((dim - 1 : Nat) : K)| ≤ A)
    (hin : NearRange dim (fun i : Nat => val s + val st * (i : K)) lam (val x))
    (hb : AxisInBounds u η Ω A (2 + lam) (val st) (val x) dim)
    (hδ1 : positionError u η (((dim - 1 : Nat) : K) + lam) < 1) :
    ∃ (q' : K) (t : T), cubRegAxis dim s st x =
        .ok (clampIdx (⌊q'⌋ - 1) (dim - 4), satRegular dim ⌊q'⌋, t) ∧
      |q' - (val x - val s) / val st| ≤ positionError u η (((dim - 1 : Nat) : K) + lam) ∧ fin t ∧
      |val t + ((clampIdx (⌊q'⌋ - 1) (dim - 4) + 1 : Nat) : K) - (val x - val s) / val st| ≤
        regularWeightError u η A (val st) (3 + lam) ∧
      -lam ≤ (val x - val s) / val st ∧ (val x - val s) / val st ≤ ((dim - 1 : Nat) : K) + lam ∧
      isizeMin < ⌊(val x - val s) / val st⌋ ∧ ⌊(val x - val s) / val st⌋ ≤ isizeMax := by
  have hu := h.u_nonneg
  have hη := h.η_nonneg
  have hA : 0 ≤ A := (abs_nonneg _).trans hA0
  have hτ := nodeError_nonneg hu hη hA
  have hτs : 0 ≤ nodeError u η A / val st := div_nonneg hτ hpos.le
  have hd0 : (0 : K) ≤ ((dim - 1 : Nat) : K) := Nat.cast_nonneg _
  -- the exact position
  set q := (val x - val s) / val st with hq
  have hqx : val x = val s + val st * q := by rw [hq, mul_div_cancel₀ _ hpos.ne']; ring
  have hcast : ((dim - 1 : Nat) : K) - ((dim - 2 : Nat) : K) = 1 := by
    rw [show dim - 1 = dim - 2 + 1 by omega]; push_cast; ring
  have hq1 : -lam ≤ q := by
    have := hin.1
    simp only [Nat.cast_zero, mul_zero, add_zero, Nat.cast_one] at this
    rw [hqx] at this
    exact le_of_mul_le_mul_left (by linarith) hpos
  have hq2 : q ≤ ((dim - 1 : Nat) : K) + lam := by
    have := hin.2
    simp only at this
    rw [hqx, show lam * (val s + val st * ((dim - 1 : Nat) : K) -
      (val s + val st * ((dim - 2 : Nat) : K))) = lam * (val st *
        (((dim - 1 : Nat) : K) - ((dim - 2 : Nat) : K))) by ring, hcast] at this
    exact le_of_mul_le_mul_left (by linarith) hpos
  have hδ0 : 0 ≤ positionError u η (((dim - 1 : Nat) : K) + lam) :=
    positionError_nonneg hu hη (by linarith)
  set δ := positionError u η (((dim - 1 : Nat) : K) + lam) with hδ
  have hδ2 : 0 ≤ positionError u η (((dim - 1 : Nat) : K) + (2 + lam)) :=
    positionError_nonneg hu hη (by linarith)
  have hix := hb.index
  -- the computed position
  have hpq := rounds_quot h (b := val s) (τ := 0) (R := ((dim - 1 : Nat) : K) + lam) hx hs hst hpos
    (by simp) (by have := abs_sub (val x) (val s); have := hb.obs; linarith)
    (by rw [← hq, abs_le]; constructor <;> linarith)
    (by have := hb.position; rw [zero_div, add_zero]; nlinarith)
  have hpe : |val ((x -. s) /. st) - q| ≤ δ := by
    have := hpq.2
    rw [zero_div, mul_zero, add_zero] at this
    rw [hδ]; exact this
  have hraw' : ∀ z, isizeMin ≤ z → z ≤ isizeMax → ⌊val ((x -. s) /. st)⌋ = z →
      rawCell s st x = some z := fun z h1 h2 h3 => by
    subst h3
    exact hwh.toIsize _ hpq.1 h1 h2
  set q' := val ((x -. s) /. st) with hq'
  have hbp := abs_le.1 hpe
  have hfl : ∀ p : K, p ≤ ((dim - 1 : Nat) : K) + lam + 1 → ⌊p⌋ ≤ isizeMax := fun p hp => by
    have h1 := Int.floor_le p
    have h2 : (⌊p⌋ : K) ≤ (isizeMax : Int) := by
      simp only [isizeMax]
      push_cast
      linarith
    exact_mod_cast h2
  have hflm : ∀ p : K, -lam - 1 ≤ p → isizeMin < ⌊p⌋ := fun p hp => by
    have h1 := Int.lt_floor_add_one p
    have h2 : ((isizeMin : Int) : K) < (⌊p⌋ : K) := by
      simp only [isizeMin]
      push_cast
      linarith
    exact_mod_cast h2
  have hmin : isizeMin < ⌊q'⌋ := hflm q' (by linarith)
  have hraw : rawCell s st x = some ⌊q'⌋ :=
    hraw' _ hmin.le (hfl q' (by linarith)) rfl
  have fq' := Int.floor_le q'
  have lq' := Int.lt_floor_add_one q'
  have hreach := (reach_of_near h4 (z := ⌊q'⌋) (q := q) (ε := lam + δ) (by linarith) (by linarith)
    (by linarith) (by linarith)).abs_le
  have hcb := clampIdx_le (⌊q'⌋ - 1) (dim - 4)
  obtain ⟨f, hf1, hf2, hf3⟩ := hwh.ofUsize (clampIdx (⌊q'⌋ - 1) (dim - 4) + 1) (by omega)
  set c := clampIdx (⌊q'⌋ - 1) (dim - 4) + 1 with hc
  have hcK : (c : K) ≤ ((dim - 1 : Nat) : K) := by exact_mod_cast (by omega : c ≤ dim - 1)
  have hc0 : (0 : K) ≤ c := Nat.cast_nonneg c
  have hAc : |val s + val st * (c : K)| ≤ A := by
    have h1 := abs_le.1 hA0
    have h3 := abs_le.1 hA1
    have h4 : val st * (c : K) ≤ val st * ((dim - 1 : Nat) : K) := by gcongr
    have h5 : 0 ≤ val st * (c : K) := by positivity
    rw [_root_.abs_le]
    constructor <;> linarith
  have hnode := rounds_node h false hs hst hf2 hf3 hA0 hAc hb.node
  simp only [Bool.false_eq_true, if_false] at hnode
  have hxn : (val x - (val s + val st * (c : K))) / val st = q - c := by
    rw [hqx]; field_simp; ring
  have hw := rounds_quot h (b := val s + val st * (c : K)) (τ := nodeError u η A) (R := 3 + lam) hx
    hnode.1 hst hpos hnode.2
    (by have := abs_sub (val x) (val s + val st * (c : K)); have := hb.obs; linarith)
    (by rw [hxn]; linarith) (by have := hb.weight; nlinarith)
  rw [hxn] at hw
  refine ⟨q', _, ?_, hpe, hw.1, ?_, hq1, hq2, hflm q (by linarith), hfl q (by linarith)⟩
  · unfold cubRegAxis
    rw [hraw]
    simp only
    rw [if_neg (by omega), ← hc, hf1]
  · refine le_of_eq_of_le (congrArg _ ?_) hw.2
    ring

end

end Interpn
