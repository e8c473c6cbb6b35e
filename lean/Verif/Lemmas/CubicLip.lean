import Verif.Lemmas.CubicNear

/-! How fast the cubic rule changes with the position of the observation. -/

set_option autoImplicit false
set_option linter.unusedSectionVars false

namespace Interpn

section
variable {K : Type} [Field K] [LinearOrder K] [IsStrictOrderedRing K] [FloorRing K]

/-- Divided differences of the Hermite basis. -/
theorem hermite_dd {t r : K} (t0 : 0 ≤ t) (t1 : t ≤ 1) (r0 : 0 ≤ r) (r1 : r ≤ 1) :
    |3 * (t + r) - 2 * (t ^ 2 + t * r + r ^ 2)| + |1 - 2 * (t + r) + (t ^ 2 + t * r + r ^ 2)| +
      |t ^ 2 + t * r + r ^ 2 - (t + r)| ≤ 2 := by
  have q1 : t ^ 2 + t * r + r ^ 2 = 3 / 4 * (t + r) ^ 2 + 1 / 4 * (t - r) ^ 2 := by ring
  have q2 : t ^ 2 + t * r + r ^ 2 ≤ 3 / 2 * (t + r) := by
    have a1 := mul_nonneg t0 (sub_nonneg.2 t1)
    have a2 := mul_nonneg r0 (sub_nonneg.2 r1)
    have a3 := mul_nonneg t0 (sub_nonneg.2 r1)
    have a4 := mul_nonneg r0 (sub_nonneg.2 t1)
    have e : 3 / 2 * (t + r) - (t ^ 2 + t * r + r ^ 2) =
      t * (1 - t) + r * (1 - r) + 1 / 2 * (t * (1 - r)) + 1 / 2 * (r * (1 - t)) := by ring
    linarith
  have s1 := sq_nonneg (t + r - 2 / 3)
  have s2 := sq_nonneg (t + r - 4 / 3)
  have s3 := sq_nonneg (t + r - 1)
  have s4 := sq_nonneg (t - r)
  have e1 : (t + r - 2 / 3) ^ 2 = (t + r) ^ 2 - 4 / 3 * (t + r) + 4 / 9 := by ring
  have e2 : (t + r - 4 / 3) ^ 2 = (t + r) ^ 2 - 8 / 3 * (t + r) + 16 / 9 := by ring
  have e3 : (t + r - 1) ^ 2 = (t + r) ^ 2 - 2 * (t + r) + 1 := by ring
  rw [e1] at s1; rw [e2] at s2; rw [e3] at s3
  generalize t ^ 2 + t * r + r ^ 2 = Q at *
  generalize t + r = σ at *
  generalize σ ^ 2 = W at *
  generalize (t - r) ^ 2 = V at *
  rw [abs_of_nonneg (by linarith)]
  rcases abs_cases (1 - 2 * σ + Q) with ⟨hb, -⟩ | ⟨hb, -⟩ <;>
    rcases abs_cases (Q - σ) with ⟨hc, -⟩ | ⟨hc, -⟩ <;> rw [hb, hc] <;> linarith

/-- A Hermite cubic whose chord and end slopes are at most `S`. -/
theorem hermite_lip_inner {a b y0 y1 m0 m1 S x z : K} (hab : a < b) (hS : |y1 - y0| ≤ S * (b - a))
    (h0 : |m0| ≤ S) (h1 : |m1| ≤ S) (hx0 : a ≤ x) (hx1 : x ≤ b) (hz0 : a ≤ z) (hz1 : z ≤ b) :
    |hermiteCubic a b y0 y1 m0 m1 z - hermiteCubic a b y0 y1 m0 m1 x| ≤ 2 * S * |z - x| := by
  have hw : 0 < b - a := sub_pos.2 hab
  set s := (y1 - y0) / (b - a) with hs
  have hsS : |s| ≤ S := by
    rw [hs, abs_div, abs_of_pos hw, div_le_iff₀ hw]; exact hS
  set t := (x - a) / (b - a) with ht
  set r := (z - a) / (b - a) with hr
  have t0 : 0 ≤ t := div_nonneg (by linarith) hw.le
  have t1 : t ≤ 1 := (div_le_one hw).2 (by linarith)
  have r0 : 0 ≤ r := div_nonneg (by linarith) hw.le
  have r1 : r ≤ 1 := (div_le_one hw).2 (by linarith)
  have e : hermiteCubic a b y0 y1 m0 m1 z - hermiteCubic a b y0 y1 m0 m1 x =
      (s * (3 * (t + r) - 2 * (t ^ 2 + t * r + r ^ 2)) +
        m0 * (1 - 2 * (t + r) + (t ^ 2 + t * r + r ^ 2)) +
        m1 * (t ^ 2 + t * r + r ^ 2 - (t + r))) * (z - x) := by
    have ez : z - x = (r - t) * (b - a) := by
      rw [hr, ht]; field_simp; ring
    have ey : y1 = y0 + s * (b - a) := by rw [hs]; field_simp; ring
    unfold hermiteCubic
    simp only [← hr, ← ht]
    rw [ez, ey]
    ring
  rw [e, abs_mul]
  refine mul_le_mul_of_nonneg_right ?_ (abs_nonneg _)
  have hS0 : 0 ≤ S := (abs_nonneg _).trans h0
  set A := 3 * (t + r) - 2 * (t ^ 2 + t * r + r ^ 2) with hA
  set B := 1 - 2 * (t + r) + (t ^ 2 + t * r + r ^ 2) with hB
  set C := t ^ 2 + t * r + r ^ 2 - (t + r) with hC
  have hsum : |A| + |B| + |C| ≤ 2 := hermite_dd t0 t1 r0 r1
  have b1 : |s * A + m0 * B + m1 * C| ≤ S * |A| + S * |B| + S * |C| := by
    refine (abs_add_le _ _).trans (add_le_add ((abs_add_le _ _).trans (add_le_add ?_ ?_)) ?_) <;>
      rw [abs_mul] <;> gcongr
  have b2 : S * |A| + S * |B| + S * |C| ≤ S * 2 := by
    have := mul_le_mul_of_nonneg_left hsum hS0
    linarith
  linarith

/-- The quadratic of the first cell, extended to the left by `lam` cells. -/
theorem hermite_lip_left {a b y0 y1 m1 S x z lam : K} (hab : a < b) (hlam : 0 ≤ lam)
    (hS : |y1 - y0| ≤ S * (b - a)) (h1 : |m1| ≤ S)
    (hx0 : a - lam * (b - a) ≤ x) (hx1 : x ≤ b) (hz0 : a - lam * (b - a) ≤ z) (hz1 : z ≤ b) :
    |hermiteCubic a b y0 y1 (2 * ((y1 - y0) / (b - a)) - m1) m1 z -
      hermiteCubic a b y0 y1 (2 * ((y1 - y0) / (b - a)) - m1) m1 x| ≤
      (3 + 4 * lam) * S * |z - x| := by
  have hw : 0 < b - a := sub_pos.2 hab
  set s := (y1 - y0) / (b - a) with hs
  have hsS : |s| ≤ S := by
    rw [hs, abs_div, abs_of_pos hw, div_le_iff₀ hw]; exact hS
  have hS0 : 0 ≤ S := (abs_nonneg _).trans h1
  set t := (x - a) / (b - a) with ht
  set r := (z - a) / (b - a) with hr
  have t0 : -lam ≤ t := by rw [ht, le_div_iff₀ hw]; linarith
  have t1 : t ≤ 1 := (div_le_one hw).2 (by linarith)
  have r0 : -lam ≤ r := by rw [hr, le_div_iff₀ hw]; linarith
  have r1 : r ≤ 1 := (div_le_one hw).2 (by linarith)
  have e : hermiteCubic a b y0 y1 (2 * s - m1) m1 z - hermiteCubic a b y0 y1 (2 * s - m1) m1 x =
      (s * (2 - (t + r)) + m1 * (t + r - 1)) * (z - x) := by
    have ez : z - x = (r - t) * (b - a) := by
      rw [hr, ht]; field_simp; ring
    have ey : y1 = y0 + s * (b - a) := by rw [hs]; field_simp; ring
    unfold hermiteCubic
    simp only [← hr, ← ht]
    rw [ez, ey]
    ring
  rw [e, abs_mul]
  refine mul_le_mul_of_nonneg_right ?_ (abs_nonneg _)
  have c1 : |2 - (t + r)| + |t + r - 1| ≤ 3 + 4 * lam := by
    rw [abs_of_nonneg (by linarith : 0 ≤ 2 - (t + r))]
    rcases abs_cases (t + r - 1) with ⟨h, -⟩ | ⟨h, -⟩ <;> rw [h] <;> linarith
  have b1 : |s * (2 - (t + r)) + m1 * (t + r - 1)| ≤ S * |2 - (t + r)| + S * |t + r - 1| := by
    refine (abs_add_le _ _).trans (add_le_add ?_ ?_) <;> rw [abs_mul] <;> gcongr
  have := mul_le_mul_of_nonneg_left c1 hS0
  linarith

/-- The quadratic of the last cell, extended to the right by `lam` cells. -/
theorem hermite_lip_right {a b y0 y1 m0 S x z lam : K} (hab : a < b) (hlam : 0 ≤ lam)
    (hS : |y1 - y0| ≤ S * (b - a)) (h0 : |m0| ≤ S)
    (hx0 : a ≤ x) (hx1 : x ≤ b + lam * (b - a)) (hz0 : a ≤ z) (hz1 : z ≤ b + lam * (b - a)) :
    |hermiteCubic a b y0 y1 m0 (2 * ((y1 - y0) / (b - a)) - m0) z -
      hermiteCubic a b y0 y1 m0 (2 * ((y1 - y0) / (b - a)) - m0) x| ≤
      (3 + 4 * lam) * S * |z - x| := by
  have hw : 0 < b - a := sub_pos.2 hab
  set s := (y1 - y0) / (b - a) with hs
  have hsS : |s| ≤ S := by
    rw [hs, abs_div, abs_of_pos hw, div_le_iff₀ hw]; exact hS
  have hS0 : 0 ≤ S := (abs_nonneg _).trans h0
  set t := (x - a) / (b - a) with ht
  set r := (z - a) / (b - a) with hr
  have t0 : 0 ≤ t := div_nonneg (by linarith) hw.le
  have t1 : t ≤ 1 + lam := by rw [ht, div_le_iff₀ hw]; linarith
  have r0 : 0 ≤ r := div_nonneg (by linarith) hw.le
  have r1 : r ≤ 1 + lam := by rw [hr, div_le_iff₀ hw]; linarith
  have e : hermiteCubic a b y0 y1 m0 (2 * s - m0) z - hermiteCubic a b y0 y1 m0 (2 * s - m0) x =
      (s * (t + r) + m0 * (1 - (t + r))) * (z - x) := by
    have ez : z - x = (r - t) * (b - a) := by
      rw [hr, ht]; field_simp; ring
    have ey : y1 = y0 + s * (b - a) := by rw [hs]; field_simp; ring
    unfold hermiteCubic
    simp only [← hr, ← ht]
    rw [ez, ey]
    ring
  rw [e, abs_mul]
  refine mul_le_mul_of_nonneg_right ?_ (abs_nonneg _)
  have c1 : |t + r| + |1 - (t + r)| ≤ 3 + 4 * lam := by
    rw [abs_of_nonneg (by linarith : 0 ≤ t + r)]
    rcases abs_cases (1 - (t + r)) with ⟨h, -⟩ | ⟨h, -⟩ <;> rw [h] <;> linarith
  have b1 : |s * (t + r) + m0 * (1 - (t + r))| ≤ S * |t + r| + S * |1 - (t + r)| := by
    refine (abs_add_le _ _).trans (add_le_add ?_ ?_) <;> rw [abs_mul] <;> gcongr
  have := mul_le_mul_of_nonneg_left c1 hS0
  linarith

variable {n : Nat} {p f : Nat → K} {S lam : K}

/-- The slope at an interior node is a mean of chord slopes. -/
theorem nodeSlope_inner_le (hi : Incr n p) {i : Nat} (h : i + 2 < n)
    (hS : ∀ i, i + 1 < n → |f (i + 1) - f i| ≤ S * (p (i + 1) - p i)) :
    |nodeSlope n p f (i + 1)| ≤ S := by
  rw [nodeSlope_inner h]
  have w1 : 0 < p (i + 1) - p i := sub_pos.2 (hi i (by omega))
  have w2 : 0 < p (i + 2) - p (i + 1) := sub_pos.2 (hi (i + 1) h)
  have c1 : |(f (i + 1) - f i) / (p (i + 1) - p i)| ≤ S := by
    rw [abs_div, abs_of_pos w1, div_le_iff₀ w1]; exact hS i (by omega)
  have c2 : |(f (i + 2) - f (i + 1)) / (p (i + 2) - p (i + 1))| ≤ S := by
    rw [abs_div, abs_of_pos w2, div_le_iff₀ w2]; exact hS (i + 1) h
  rw [abs_div, abs_of_pos (by linarith : 0 < p (i + 2) - p i), div_le_iff₀ (by linarith)]
  refine (abs_add_le _ _).trans ?_
  rw [abs_mul, abs_mul, abs_of_pos w1, abs_of_pos w2]
  have d1 := mul_le_mul_of_nonneg_left c2 w1.le
  have d2 := mul_le_mul_of_nonneg_left c1 w2.le
  linarith

/-- Gluing two Lipschitz pieces. -/
theorem lip_glue {F : K → K} {L a x z : K} (hxa : x ≤ a) (haz : a ≤ z)
    (h1 : |F a - F x| ≤ L * |a - x|) (h2 : |F z - F a| ≤ L * |z - a|) :
    |F z - F x| ≤ L * |z - x| := by
  have := abs_add_le (F z - F a) (F a - F x)
  rw [sub_add_sub_cancel] at this
  rw [abs_of_nonneg (sub_nonneg.2 hxa)] at h1
  rw [abs_of_nonneg (sub_nonneg.2 haz)] at h2
  rw [abs_of_nonneg (sub_nonneg.2 (hxa.trans haz))]
  linarith

/-- Within one cell. -/
theorem cubicPiece_lip_cell (hi : Incr n p) (hn : 4 ≤ n) (lin : Bool) (hlam : 0 ≤ lam)
    (hS : ∀ i, i + 1 < n → |f (i + 1) - f i| ≤ S * (p (i + 1) - p i)) {x z : K} {c : Nat}
    (hc : InCell n p x c) (hd : InCell n p z c) (hx : NearRange n p lam x)
    (hz : NearRange n p lam z) (hxz : x ≤ z) :
    |cubicPiece n p f lin c z - cubicPiece n p f lin c x| ≤ (3 + 4 * lam) * S * |z - x| := by
  have hc1 := hc.1
  have hS0 : 0 ≤ S := by
    have h1 := (abs_nonneg _).trans (hS c hc1)
    have h2 := sub_pos.2 (hi c hc1)
    exact nonneg_of_mul_nonneg_left h1 h2
  have hlamS : 0 ≤ lam * S := mul_nonneg hlam hS0
  rcases Nat.eq_zero_or_pos c with rfl | hpos
  · -- first cell
    have hx1 : x ≤ p 1 := by rcases hc.2.2 with h | h; · omega
                             · exact h
    have hz1 : z ≤ p 1 := by rcases hd.2.2 with h | h; · omega
                             · exact h
    have hin := nodeSlope_inner_le hi (i := 0) (by omega) hS
    simp only [zero_add] at hin
    have hw : 0 < p 1 - p 0 := sub_pos.2 (hi 0 (by omega))
    have hlast : ∀ y ≤ p 1, ¬ (lin = true ∧ p (n - 1) < y) := fun y hy h => by
      have := Incr.le hi (show 1 ≤ n - 1 by omega) (by omega)
      linarith [h.2]
    have hout : ∀ y ≤ p 1, lin = true → y ≤ p 0 → cubicPiece n p f lin 0 y =
        f 0 + nodeSlope n p f 0 * (y - p 0) := fun y hy hl h0 => by
      unfold cubicPiece
      rcases h0.lt_or_eq with h | h
      · rw [if_pos ⟨hl, h⟩]
      · rw [if_neg (fun hh => by linarith [hh.2]), if_neg (hlast y hy), h]
        unfold hermiteCubic
        simp
    have hinn : ∀ y ≤ p 1, (lin = true → p 0 ≤ y) → cubicPiece n p f lin 0 y =
        hermiteCubic (p 0) (p 1) (f 0) (f 1) (nodeSlope n p f 0) (nodeSlope n p f 1) y :=
      fun y hy h => by
        unfold cubicPiece
        rw [if_neg (fun hh => by have := h hh.1; linarith [hh.2]), if_neg (hlast y hy)]
    have herm : ∀ lam' : K, 0 ≤ lam' → lam' ≤ lam → ∀ y1 y2 : K, p 0 - lam' * (p 1 - p 0) ≤ y1 →
        y1 ≤ p 1 → p 0 - lam' * (p 1 - p 0) ≤ y2 → y2 ≤ p 1 →
        |hermiteCubic (p 0) (p 1) (f 0) (f 1) (nodeSlope n p f 0) (nodeSlope n p f 1) y2 -
          hermiteCubic (p 0) (p 1) (f 0) (f 1) (nodeSlope n p f 0) (nodeSlope n p f 1) y1| ≤
          (3 + 4 * lam) * S * |y2 - y1| := fun lam' hl0 hl1 y1 y2 a1 a2 a3 a4 => by
      have := hermite_lip_left (hi 0 (by omega)) hl0 (hS 0 (by omega)) hin a1 a2 a3 a4
      rw [nodeSlope_first (by omega)]
      refine this.trans ?_
      gcongr
    by_cases hl : lin = true
    · have tang : ∀ y1 y2 : K, |(f 0 + nodeSlope n p f 0 * (y2 - p 0)) -
          (f 0 + nodeSlope n p f 0 * (y1 - p 0))| ≤ (3 + 4 * lam) * S * |y2 - y1| := fun y1 y2 => by
        have : (f 0 + nodeSlope n p f 0 * (y2 - p 0)) - (f 0 + nodeSlope n p f 0 * (y1 - p 0)) =
            nodeSlope n p f 0 * (y2 - y1) := by ring
        rw [this, abs_mul]
        refine mul_le_mul_of_nonneg_right ?_ (abs_nonneg _)
        rw [nodeSlope_first (by omega)]
        have c1 : |(f 1 - f 0) / (p 1 - p 0)| ≤ S := by
          rw [abs_div, abs_of_pos hw, div_le_iff₀ hw]; exact hS 0 (by omega)
        have c2 := abs_sub (2 * ((f 1 - f 0) / (p 1 - p 0))) (nodeSlope n p f 1)
        rw [abs_mul, abs_of_pos (by norm_num : (0 : K) < 2)] at c2
        linarith
      rcases le_total z (p 0) with hz0 | hz0
      · rw [hout z hz1 hl hz0, hout x hx1 hl (hxz.trans hz0)]
        exact tang x z
      rcases le_total x (p 0) with hx0 | hx0
      · refine lip_glue hx0 hz0 ?_ ?_
        · rw [hout x hx1 hl hx0, hout (p 0) (by linarith) hl le_rfl]
          exact tang x (p 0)
        · rw [hinn z hz1 fun _ => hz0, hinn (p 0) (by linarith) fun _ => le_rfl]
          exact herm 0 le_rfl hlam _ _ (by linarith) (by linarith) (by linarith) hz1
      · rw [hinn z hz1 fun _ => hz0, hinn x hx1 fun _ => hx0]
        exact herm 0 le_rfl hlam _ _ (by linarith) hx1 (by linarith) hz1
    · rw [hinn z hz1 fun h => absurd h hl, hinn x hx1 fun h => absurd h hl]
      exact herm lam hlam le_rfl _ _ hx.1 hx1 hz.1 hz1
  have hpx : p c ≤ x := by rcases hc.2.1 with h | h; · omega
                           · exact h
  have hpz : p c ≤ z := hpx.trans hxz
  have hfirst : ∀ y, p c ≤ y → ¬ (lin = true ∧ y < p 0) := fun y hy h => by
    have := Incr.le hi (Nat.zero_le c) (by omega)
    linarith [h.2]
  obtain ⟨e, rfl⟩ : ∃ e, c = e + 1 := ⟨c - 1, by omega⟩
  have hin := nodeSlope_inner_le hi (i := e) (by omega) hS
  by_cases hlastc : e + 1 + 2 = n
  · -- last cell
    have en : n - 1 = e + 1 + 1 := by omega
    have en2 : n - 2 = e + 1 := by omega
    have hw : 0 < p (e + 1 + 1) - p (e + 1) := sub_pos.2 (hi (e + 1) (by omega))
    have hxn := hx.2
    have hzn := hz.2
    rw [en, en2] at hxn hzn
    have hend := nodeSlope_last (p := p) (f := f) (n := n) (i := e + 1) (by omega) hlastc
    have hout : ∀ y, p (e + 1) ≤ y → lin = true → p (e + 1 + 1) ≤ y →
        cubicPiece n p f lin (e + 1) y =
        f (e + 1 + 1) + nodeSlope n p f (e + 1 + 1) * (y - p (e + 1 + 1)) := fun y hy hl h0 => by
      unfold cubicPiece
      rw [if_neg (hfirst y hy), en]
      rcases h0.lt_or_eq with h | h
      · rw [if_pos ⟨hl, h⟩]
      · rw [if_neg (fun hh => by linarith [hh.2]), ← h]
        unfold hermiteCubic
        simp only
        rw [div_self hw.ne']
        ring
    have hinn : ∀ y, p (e + 1) ≤ y → (lin = true → y ≤ p (e + 1 + 1)) →
        cubicPiece n p f lin (e + 1) y = hermiteCubic (p (e + 1)) (p (e + 1 + 1)) (f (e + 1))
          (f (e + 1 + 1)) (nodeSlope n p f (e + 1)) (nodeSlope n p f (e + 1 + 1)) y :=
      fun y hy h => by
        unfold cubicPiece
        rw [if_neg (hfirst y hy), en, if_neg (fun hh => by have := h hh.1; linarith [hh.2])]
    have herm : ∀ lam' : K, 0 ≤ lam' → lam' ≤ lam → ∀ y1 y2 : K, p (e + 1) ≤ y1 →
        y1 ≤ p (e + 1 + 1) + lam' * (p (e + 1 + 1) - p (e + 1)) → p (e + 1) ≤ y2 →
        y2 ≤ p (e + 1 + 1) + lam' * (p (e + 1 + 1) - p (e + 1)) →
        |hermiteCubic (p (e + 1)) (p (e + 1 + 1)) (f (e + 1))
          (f (e + 1 + 1)) (nodeSlope n p f (e + 1)) (nodeSlope n p f (e + 1 + 1)) y2 -
          hermiteCubic (p (e + 1)) (p (e + 1 + 1)) (f (e + 1))
          (f (e + 1 + 1)) (nodeSlope n p f (e + 1)) (nodeSlope n p f (e + 1 + 1)) y1| ≤
          (3 + 4 * lam) * S * |y2 - y1| := fun lam' hl0 hl1 y1 y2 a1 a2 a3 a4 => by
      have := hermite_lip_right (hi (e + 1) (by omega)) hl0 (hS (e + 1) (by omega)) hin a1 a2 a3 a4
      rw [hend]
      refine this.trans ?_
      gcongr
    by_cases hl : lin = true
    · have tang : ∀ y1 y2 : K, |(f (e + 1 + 1) + nodeSlope n p f (e + 1 + 1) * (y2 - p (e + 1 + 1))) -
          (f (e + 1 + 1) + nodeSlope n p f (e + 1 + 1) * (y1 - p (e + 1 + 1)))| ≤
          (3 + 4 * lam) * S * |y2 - y1| := fun y1 y2 => by
        have : (f (e + 1 + 1) + nodeSlope n p f (e + 1 + 1) * (y2 - p (e + 1 + 1))) -
            (f (e + 1 + 1) + nodeSlope n p f (e + 1 + 1) * (y1 - p (e + 1 + 1))) =
            nodeSlope n p f (e + 1 + 1) * (y2 - y1) := by ring
        rw [this, abs_mul]
        refine mul_le_mul_of_nonneg_right ?_ (abs_nonneg _)
        rw [hend]
        have c1 : |(f (e + 1 + 1) - f (e + 1)) / (p (e + 1 + 1) - p (e + 1))| ≤ S := by
          rw [abs_div, abs_of_pos hw, div_le_iff₀ hw]; exact hS (e + 1) (by omega)
        have c2 := abs_sub (2 * ((f (e + 1 + 1) - f (e + 1)) / (p (e + 1 + 1) - p (e + 1))))
          (nodeSlope n p f (e + 1))
        rw [abs_mul, abs_of_pos (by norm_num : (0 : K) < 2)] at c2
        linarith
      rcases le_total (p (e + 1 + 1)) x with hx0 | hx0
      · rw [hout z hpz hl (hx0.trans hxz), hout x hpx hl hx0]
        exact tang x z
      rcases le_total (p (e + 1 + 1)) z with hz0 | hz0
      · refine lip_glue hx0 hz0 ?_ ?_
        · rw [hinn x hpx fun _ => hx0, hinn (p (e + 1 + 1)) (by linarith) fun _ => le_rfl]
          exact herm 0 le_rfl hlam _ _ hpx (by linarith) (by linarith) (by linarith)
        · rw [hout z hpz hl hz0, hout (p (e + 1 + 1)) (by linarith) hl le_rfl]
          exact tang _ z
      · rw [hinn z hpz fun _ => hz0, hinn x hpx fun _ => hx0]
        exact herm 0 le_rfl hlam _ _ hpx (by linarith) hpz (by linarith)
    · rw [hinn z hpz fun h => absurd h hl, hinn x hpx fun h => absurd h hl]
      exact herm lam hlam le_rfl _ _ hpx hxn hpz hzn
  · -- interior cell
    have hzr : z ≤ p (e + 1 + 1) := by rcases hd.2.2 with h | h; · omega
                                       · exact h
    have hxr : x ≤ p (e + 1 + 1) := hxz.trans hzr
    have hinn : ∀ y, p (e + 1) ≤ y → y ≤ p (e + 1 + 1) →
        cubicPiece n p f lin (e + 1) y = hermiteCubic (p (e + 1)) (p (e + 1 + 1)) (f (e + 1))
          (f (e + 1 + 1)) (nodeSlope n p f (e + 1)) (nodeSlope n p f (e + 1 + 1)) y :=
      fun y hy h => by
        unfold cubicPiece
        have := Incr.le hi (show e + 1 + 1 ≤ n - 1 by omega) (by omega)
        rw [if_neg (hfirst y hy), if_neg (fun hh => by linarith [hh.2])]
    rw [hinn z hpz hzr, hinn x hpx hxr]
    have := hermite_lip_inner (hi (e + 1) (by omega)) (hS (e + 1) (by omega)) hin
      (nodeSlope_inner_le hi (i := e + 1) (by omega) hS) hpx hxr hpz hzr
    refine this.trans ?_
    gcongr
    linarith

/-- The cubic rule is Lipschitz: if neighbouring values differ by at most `S` per unit of length, it
changes by at most `3 + 4 λ` times as much, up to `λ` cells outside the grid. -/
theorem cubicPiece_lip_x (hi : Incr n p) (hn : 4 ≤ n) (lin : Bool) (hlam : 0 ≤ lam)
    (hS : ∀ i, i + 1 < n → |f (i + 1) - f i| ≤ S * (p (i + 1) - p i)) {x z : K} {c d : Nat}
    (hc : InCell n p x c) (hd : InCell n p z d) (hx : NearRange n p lam x)
    (hz : NearRange n p lam z) :
    |cubicPiece n p f lin d z - cubicPiece n p f lin c x| ≤ (3 + 4 * lam) * S * |z - x| := by
  have main : ∀ (k : Nat) {x z : K} {c d : Nat}, d = c + k → InCell n p x c → InCell n p z d →
      NearRange n p lam x → NearRange n p lam z → x ≤ z →
      |cubicPiece n p f lin d z - cubicPiece n p f lin c x| ≤ (3 + 4 * lam) * S * (z - x) := by
    intro k
    induction k with
    | zero =>
      intro x z c d hk hc hd hx hz hxz
      rw [add_zero] at hk; subst hk
      have := cubicPiece_lip_cell hi hn lin hlam hS hc hd hx hz hxz
      rwa [abs_of_nonneg (sub_nonneg.2 hxz)] at this
    | succ k ih =>
      intro x z c d hk hc hd hx hz hxz
      have hd1 := hd.1
      have hx1 : x ≤ p (c + 1) := by
        rcases hc.2.2 with h | h
        · omega
        · exact h
      have hz1 : p (c + 1) ≤ z := by
        rcases hd.2.1 with h | h
        · omega
        · exact (Incr.le hi (show c + 1 ≤ d by omega) (by omega)).trans h
      have hcell : InCell n p (p (c + 1)) (c + 1) :=
        ⟨by omega, .inr le_rfl, .inr (hi (c + 1) (by omega)).le⟩
      have hcell' : InCell n p (p (c + 1)) c :=
        ⟨by omega, .inr (hi c (by omega)).le, .inr le_rfl⟩
      have w0 : 0 ≤ lam * (p 1 - p 0) := mul_nonneg hlam (sub_pos.2 (hi 0 (by omega))).le
      have w1 : 0 ≤ lam * (p (n - 1) - p (n - 2)) := by
        have := hi (n - 2) (by omega)
        rw [show n - 2 + 1 = n - 1 by omega] at this
        exact mul_nonneg hlam (sub_pos.2 this).le
      have hnode : NearRange n p lam (p (c + 1)) := by
        constructor
        · have := Incr.le hi (Nat.zero_le (c + 1)) (by omega); linarith
        · have := Incr.le hi (show c + 1 ≤ n - 1 by omega) (by omega); linarith
      have h1 := ih (d := d) (by omega) hcell hd hnode hz hz1
      have h2 := cubicPiece_lip_cell hi hn lin hlam hS hc hcell' hx hnode hx1
      rw [cubicPiece_node hi f lin (by omega) hcell] at h1
      rw [cubicPiece_node hi f lin (by omega) hcell', abs_of_nonneg (sub_nonneg.2 hx1)] at h2
      have := abs_add_le (cubicPiece n p f lin d z - f (c + 1))
        (f (c + 1) - cubicPiece n p f lin c x)
      rw [sub_add_sub_cancel] at this
      linarith
  have ordered : ∀ {x z : K} {c d : Nat}, InCell n p x c → InCell n p z d →
      NearRange n p lam x → NearRange n p lam z → x ≤ z →
      |cubicPiece n p f lin d z - cubicPiece n p f lin c x| ≤ (3 + 4 * lam) * S * (z - x) := by
    intro x z c d hc hd hx hz hxz
    rcases le_or_gt c d with h | h
    · exact main (d - c) (by omega) hc hd hx hz hxz
    · have hc1 := hc.1
      have a1 : p c ≤ x := by
        rcases hc.2.1 with h' | h'
        · omega
        · exact h'
      have a2 : z ≤ p (d + 1) := by
        rcases hd.2.2 with h' | h'
        · omega
        · exact h'
      have a3 := Incr.le hi (show d + 1 ≤ c by omega) (by omega)
      have e : z = x := le_antisymm (by linarith) hxz
      subst e
      rw [cubicPiece_unique hi f lin hd hc]
      simp
  rcases le_total x z with h | h
  · rw [abs_of_nonneg (sub_nonneg.2 h)]
    exact ordered hc hd hx hz h
  · rw [abs_sub_comm, abs_sub_comm z, abs_of_nonneg (sub_nonneg.2 h)]
    exact ordered hd hc hz hx h

end
end Interpn
