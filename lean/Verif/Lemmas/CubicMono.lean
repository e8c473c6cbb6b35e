import Verif.Lemmas.Pieces
import Verif.Lemmas.Accuracy
import Mathlib.Tactic.Linarith
import Mathlib.Tactic.Ring
import Mathlib.Tactic.FieldSimp
import Mathlib.Tactic.Positivity

/-! When the cubic interpolant of increasing data is increasing. Used for C134. -/

set_option autoImplicit false
set_option linter.unusedSectionVars false

namespace Interpn

section
variable {K : Type} [Field K] [LinearOrder K] [IsStrictOrderedRing K] [FloorRing K]

theorem cube_mono {a b : K} (h : a ≤ b) : a ^ 3 ≤ b ^ 3 :=
  (Odd.pow_le_pow (n := 3) ⟨1, rfl⟩).2 h

theorem smoothstep_mono {t u : K} (h0 : 0 ≤ t) (h : t ≤ u) (h1 : u ≤ 1) :
    0 ≤ u ^ 2 * (3 - 2 * u) - t ^ 2 * (3 - 2 * t) := by
  have ht : t ≤ 1 := h.trans h1
  have hu : 0 ≤ u := h0.trans h
  have a1 := mul_nonneg hu (sub_nonneg.2 h1)
  have a2 := mul_nonneg h0 (sub_nonneg.2 ht)
  have a3 := mul_nonneg hu (sub_nonneg.2 ht)
  have a4 := mul_nonneg h0 (sub_nonneg.2 h1)
  have e : u ^ 2 * (3 - 2 * u) - t ^ 2 * (3 - 2 * t) =
      (u - t) * (2 * (u * (1 - u)) + 2 * (t * (1 - t)) + u * (1 - t) + t * (1 - u)) := by ring
  rw [e]
  exact mul_nonneg (sub_nonneg.2 h) (by linarith)

/-- The Hermite cubic over the unit interval with rise `d ≥ 0` and end slopes between `0` and
`3 d` does not decrease. -/
theorem hermite_unit_mono {d A B t u : K} (hd : 0 ≤ d) (hA0 : 0 ≤ A) (hA : A ≤ 3 * d) (hB0 : 0 ≤ B)
    (hB : B ≤ 3 * d) (h0 : 0 ≤ t) (h : t ≤ u) (h1 : u ≤ 1) :
    d * (t ^ 2 * (3 - 2 * t)) + A * (t * (1 - t) ^ 2) - B * (t ^ 2 * (1 - t)) ≤
      d * (u ^ 2 * (3 - 2 * u)) + A * (u * (1 - u) ^ 2) - B * (u ^ 2 * (1 - u)) := by
  have c00 := smoothstep_mono h0 h h1
  obtain ⟨S, hS⟩ : ∃ S, S = u ^ 2 * (3 - 2 * u) - t ^ 2 * (3 - 2 * t) := ⟨_, rfl⟩
  obtain ⟨p, hp⟩ : ∃ p, p = u * (1 - u) ^ 2 - t * (1 - t) ^ 2 := ⟨_, rfl⟩
  obtain ⟨q, hq⟩ : ∃ q, q = u ^ 2 * (1 - u) - t ^ 2 * (1 - t) := ⟨_, rfl⟩
  have c30 : 0 ≤ S + 3 * p := by
    have := cube_mono (show 1 - u ≤ 1 - t by linarith)
    have e : S + 3 * p = (1 - t) ^ 3 - (1 - u) ^ 3 := by rw [hS, hp]; ring
    linarith
  have c03 : 0 ≤ S - 3 * q := by
    have := cube_mono h
    have e : S - 3 * q = u ^ 3 - t ^ 3 := by rw [hS, hq]; ring
    linarith
  have c33 : 0 ≤ S + 3 * p - 3 * q := by
    have := cube_mono (show 2 * t - 1 ≤ 2 * u - 1 by linarith)
    have e : 2 * (S + 3 * p - 3 * q) = (2 * u - 1) ^ 3 - (2 * t - 1) ^ 3 := by
      rw [hS, hp, hq]; ring
    linarith
  rw [← hS] at c00
  suffices 0 ≤ d * S + A * p - B * q by
    have e : d * S + A * p - B * q = (d * (u ^ 2 * (3 - 2 * u)) + A * (u * (1 - u) ^ 2) -
        B * (u ^ 2 * (1 - u))) - (d * (t ^ 2 * (3 - 2 * t)) + A * (t * (1 - t) ^ 2) -
        B * (t ^ 2 * (1 - t))) := by rw [hS, hp, hq]; ring
    linarith
  rcases le_total 0 p with sp | sp <;> rcases le_total 0 q with sq | sq
  · nlinarith [mul_nonneg hA0 sp, mul_le_mul_of_nonneg_right hB sq, mul_nonneg hd c03]
  · nlinarith [mul_nonneg hA0 sp, mul_nonneg hB0 (neg_nonneg.2 sq), mul_nonneg hd c00]
  · nlinarith [mul_le_mul_of_nonneg_right hA (neg_nonneg.2 sp), mul_le_mul_of_nonneg_right hB sq,
      mul_nonneg hd c33]
  · nlinarith [mul_le_mul_of_nonneg_right hA (neg_nonneg.2 sp), mul_nonneg hB0 (neg_nonneg.2 sq),
      mul_nonneg hd c30]

theorem hermiteCubic_mono {a b y0 y1 m0 m1 x z : K} (hab : a < b) (hm0 : 0 ≤ m0) (hm1 : 0 ≤ m1)
    (h3 : m0 * (b - a) ≤ 3 * (y1 - y0)) (h3' : m1 * (b - a) ≤ 3 * (y1 - y0)) (hx : a ≤ x)
    (hxz : x ≤ z) (hz : z ≤ b) :
    hermiteCubic a b y0 y1 m0 m1 x ≤ hermiteCubic a b y0 y1 m0 m1 z := by
  have hw : 0 < b - a := sub_pos.2 hab
  have k0 := mul_nonneg hm0 hw.le
  have k1 := mul_nonneg hm1 hw.le
  have := hermite_unit_mono (d := y1 - y0) (A := m0 * (b - a)) (B := m1 * (b - a))
    (t := (x - a) / (b - a)) (u := (z - a) / (b - a)) (by linarith) k0 h3 k1 h3'
    (div_nonneg (by linarith) hw.le) (div_le_div_of_nonneg_right (by linarith) hw.le)
    (by rw [div_le_one hw]; linarith)
  unfold hermiteCubic
  simp only
  generalize (x - a) / (b - a) = t at *
  generalize (z - a) / (b - a) = u at *
  linarith

section
variable {n : Nat} {p f : Nat → K}

/-- If on every cell both node slopes are between `0` and three times the slope of the chord, the
cubic interpolant does not decrease, inside the grid, and everywhere if the extrapolation is
linearized. -/
theorem cubicPiece_mono (hi : Incr n p) (hn : 2 ≤ n) (lin : Bool)
    (h0 : ∀ i < n, 0 ≤ nodeSlope n p f i)
    (h3 : ∀ i, i + 1 < n → nodeSlope n p f i * (p (i + 1) - p i) ≤ 3 * (f (i + 1) - f i))
    (h3' : ∀ i, i + 1 < n → nodeSlope n p f (i + 1) * (p (i + 1) - p i) ≤ 3 * (f (i + 1) - f i))
    {x z : K} (hxz : x ≤ z) (hin : lin = true ∨ p 0 ≤ x ∧ z ≤ p (n - 1)) {c d : Nat}
    (hc : InCell n p x c) (hd : InCell n p z d) :
    cubicPiece n p f lin c x ≤ cubicPiece n p f lin d z := by
  have hf : ∀ i, i + 1 < n → f i ≤ f (i + 1) := fun i h => by
    have := mul_nonneg (h0 i (by omega)) (sub_pos.2 (hi i h)).le
    have := h3 i h
    linarith
  -- within one cell, inside the grid
  have cell : ∀ c, c + 1 < n → ∀ u v : K, p c ≤ u → u ≤ v → v ≤ p (c + 1) →
      cubicPiece n p f lin c u ≤ cubicPiece n p f lin c v := by
    intro c hc u v hu huv hv
    have l0 : p 0 ≤ p c := hi.le (by omega) (by omega)
    have l1 : p (c + 1) ≤ p (n - 1) := hi.le (by omega) (by omega)
    have e : ∀ w, p c ≤ w → w ≤ p (c + 1) → cubicPiece n p f lin c w = hermiteCubic (p c) (p (c + 1))
        (f c) (f (c + 1)) (nodeSlope n p f c) (nodeSlope n p f (c + 1)) w := by
      intro w hw hw'
      unfold cubicPiece
      rw [if_neg (by rintro ⟨_, h⟩; linarith), if_neg (by rintro ⟨_, h⟩; linarith)]
    rw [e u hu (huv.trans hv), e v (hu.trans huv) hv]
    exact hermiteCubic_mono (hi c hc) (h0 _ (by omega)) (h0 _ hc) (h3 c hc) (h3' c hc) hu huv hv
  have left : ∀ c, c + 1 < n → cubicPiece n p f lin c (p c) = f c := fun c hc =>
    cubicPiece_node hi f lin (by omega) ⟨hc, .inr le_rfl, .inr (hi c hc).le⟩
  have right : ∀ c, c + 1 < n → cubicPiece n p f lin c (p (c + 1)) = f (c + 1) := fun c hc =>
    cubicPiece_node hi f lin hc ⟨hc, .inr (hi c hc).le, .inr le_rfl⟩
  -- any two points inside the grid
  have inside : ∀ (u v : K) (c d : Nat), p 0 ≤ u → v ≤ p (n - 1) → u ≤ v → InCell n p u c →
      InCell n p v d → cubicPiece n p f lin c u ≤ cubicPiece n p f lin d v := by
    intro u v c d hu hv huv hc hd
    have lo : ∀ {w : K} {c : Nat}, p 0 ≤ w → InCell n p w c → p c ≤ w := fun hw h =>
      h.2.1.elim (fun e => by rw [e]; exact hw) id
    have hi' : ∀ {w : K} {c : Nat}, w ≤ p (n - 1) → InCell n p w c → w ≤ p (c + 1) := by
      intro w c hw h
      rcases h.2.2 with e | e
      · rwa [show c + 1 = n - 1 by omega]
      · exact e
    have hu' := hi' (huv.trans hv) hc
    have hv' := lo (hu.trans huv) hd
    rcases Nat.lt_trichotomy c d with h | h | h
    · have a := cell c hc.1 u _ (lo hu hc) hu' le_rfl
      have b := cell d hd.1 _ v le_rfl hv' (hi' hv hd)
      rw [right c hc.1] at a
      rw [left d hd.1] at b
      exact a.trans ((mono_of_step hf h (by have := hd.1; omega)).trans b)
    · subst h
      exact cell c hc.1 u v (lo hu hc) huv (hi' hv hd)
    · have a : u = v := le_antisymm huv ((hi' hv hd).trans
        ((hi.le (show d + 1 ≤ c from h) (by have := hc.1; omega)).trans (lo hu hc)))
      subst a
      exact (cubicPiece_unique hi f lin hc hd).le
  -- the linear parts below and above
  have below : ∀ u c, lin = true → u < p 0 →
      cubicPiece n p f lin c u = f 0 + nodeSlope n p f 0 * (u - p 0) := by
    intro u c hl hu
    unfold cubicPiece
    rw [if_pos ⟨hl, hu⟩]
  have above : ∀ u c, lin = true → p (n - 1) < u →
      cubicPiece n p f lin c u = f (n - 1) + nodeSlope n p f (n - 1) * (u - p (n - 1)) := by
    intro u c hl hu
    have : p 0 ≤ p (n - 1) := hi.le (by omega) (by omega)
    unfold cubicPiece
    rw [if_neg (by rintro ⟨_, h⟩; linarith), if_pos ⟨hl, hu⟩]
  have s0 := h0 0 (by omega)
  have s1 := h0 (n - 1) (by omega)
  have f01 : f 0 ≤ f (n - 1) := mono_of_step hf (Nat.zero_le _) (by omega)
  have cell0 : InCell n p (p 0) 0 := ⟨by omega, .inl rfl, .inr (hi 0 (by omega)).le⟩
  have cell1 : InCell n p (p (n - 1)) (n - 2) := ⟨by omega, .inr (hi.le (by omega) (by omega)),
    .inl (by omega)⟩
  have e0 : cubicPiece n p f lin 0 (p 0) = f 0 := left 0 (by omega)
  have e1 : cubicPiece n p f lin (n - 2) (p (n - 1)) = f (n - 1) := by
    have := right (n - 2) (by omega)
    rwa [show n - 2 + 1 = n - 1 by omega] at this
  rcases lt_or_ge x (p 0) with hx | hx
  · have hl : lin = true := hin.resolve_right fun h => absurd h.1 (not_le.2 hx)
    have b0 : cubicPiece n p f lin c x ≤ f 0 := by
      rw [below x c hl hx]
      nlinarith [mul_nonneg s0 (sub_nonneg.2 hx.le)]
    rcases lt_or_ge z (p 0) with hz | hz
    · rw [below x c hl hx, below z d hl hz]
      nlinarith [mul_le_mul_of_nonneg_left hxz s0]
    · rcases lt_or_ge (p (n - 1)) z with hz' | hz'
      · rw [above z d hl hz']
        nlinarith [mul_nonneg s1 (sub_nonneg.2 hz'.le)]
      · have := inside _ z _ d le_rfl hz' hz cell0 hd
        rw [e0] at this
        exact b0.trans this
  · rcases lt_or_ge (p (n - 1)) z with hz' | hz'
    · have hl : lin = true := hin.resolve_right fun h => absurd h.2 (not_le.2 hz')
      have b1 : f (n - 1) ≤ cubicPiece n p f lin d z := by
        rw [above z d hl hz']
        nlinarith [mul_nonneg s1 (sub_nonneg.2 hz'.le)]
      rcases lt_or_ge (p (n - 1)) x with hx' | hx'
      · rw [above x c hl hx', above z d hl hz']
        nlinarith [mul_le_mul_of_nonneg_left hxz s1]
      · have := inside x _ c _ hx le_rfl hx' hc cell1
        rw [e1] at this
        exact this.trans b1
    · exact inside x z c d hx hz' hxz hc hd

/-- The slope at an interior node is nonnegative and at most the larger of the chords on both sides
if these are nonnegative. -/
theorem nodeSlope_between (hi : Incr n p) {i : Nat} (h : i + 2 < n) {s s' : K}
    (hs : f (i + 1) - f i = s * (p (i + 1) - p i))
    (hs' : f (i + 2) - f (i + 1) = s' * (p (i + 2) - p (i + 1))) (h0 : 0 ≤ s) (h0' : 0 ≤ s') :
    0 ≤ nodeSlope n p f (i + 1) ∧ (∀ M, s ≤ M → s' ≤ M → nodeSlope n p f (i + 1) ≤ M) := by
  have w1 : 0 < p (i + 1) - p i := sub_pos.2 (hi i (by omega))
  have w2 : 0 < p (i + 2) - p (i + 1) := sub_pos.2 (hi (i + 1) h)
  have w3 : 0 < p (i + 2) - p i := by linarith
  rw [nodeSlope_inner h, hs, hs', mul_div_cancel_right₀ _ w1.ne', mul_div_cancel_right₀ _ w2.ne']
  constructor
  · positivity
  · intro M h1 h2
    rw [div_le_iff₀ w3]
    nlinarith [mul_le_mul_of_nonneg_left h1 w2.le, mul_le_mul_of_nonneg_left h2 w1.le]

end

end

end Interpn
