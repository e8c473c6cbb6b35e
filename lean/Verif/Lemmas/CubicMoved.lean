import Verif.Lemmas.CubicLip

/-! How the cubic rule changes when the nodes are displaced. -/

set_option autoImplicit false
set_option linter.unusedSectionVars false

namespace Interpn

section
variable {K : Type} [Field K] [LinearOrder K] [IsStrictOrderedRing K] [FloorRing K]

theorem ratio_close {a b a' b' δ : K} (ha : 0 < a) (hb : 0 < b) (hb' : 0 < b') (h1 : |a' - a| ≤ δ)
    (h2 : |b' - b| ≤ δ) : |a' / b' - a / b| ≤ δ / b' * (1 + a / b) := by
  have e : a' / b' - a / b = ((a' - a) - a / b * (b' - b)) / b' := by
    field_simp; ring
  have hr : 0 < a / b := div_pos ha hb
  rw [e, abs_div, abs_of_pos hb', div_mul_eq_mul_div δ]
  refine div_le_div_of_nonneg_right ?_ hb'.le
  have h3 := abs_sub (a' - a) (a / b * (b' - b))
  rw [abs_mul, abs_of_pos hr] at h3
  have h4 : a / b * |b' - b| ≤ a / b * δ := by gcongr
  linarith

/-- The slope at a node times the width of the adjacent cell, as a function of the ratio of widths. -/
theorem scaled_close {A D M r r' : K} (hA : |A| ≤ M) (hD : |D| ≤ M) (hr : 0 < r) (hr' : 0 < r') :
    |(r' ^ 2 * A + D) / (1 + r') - (r ^ 2 * A + D) / (1 + r)| ≤ M * |r' - r| := by
  set s := 1 / ((1 + r) * (1 + r')) with hs
  have h1 : (1 : K) + r ≠ 0 := by positivity
  have h2 : (1 : K) + r' ≠ 0 := by positivity
  have e : (r' ^ 2 * A + D) / (1 + r') - (r ^ 2 * A + D) / (1 + r) =
      (A * (1 - s) - D * s) * (r' - r) := by
    rw [hs]; field_simp; ring
  have s0 : 0 ≤ s := by positivity
  have s1 : s ≤ 1 := by
    rw [hs, div_le_one (by positivity)]
    nlinarith [mul_pos hr hr']
  rw [e, abs_mul]
  gcongr
  have h3 := abs_sub (A * (1 - s)) (D * s)
  rw [abs_mul, abs_mul, abs_of_nonneg s0, abs_of_nonneg (sub_nonneg.2 s1)] at h3
  have h4 := mul_le_mul_of_nonneg_right hA (sub_nonneg.2 s1)
  have h5 := mul_le_mul_of_nonneg_right hD s0
  linarith

variable {n : Nat} {p q f : Nat → K} {w ε B ρ : K}

theorem scaled_right (hi : Incr n p) {i : Nat} (h : i + 2 < n) :
    (p (i + 2) - p (i + 1)) * nodeSlope n p f (i + 1) =
      (((p (i + 2) - p (i + 1)) / (p (i + 1) - p i)) ^ 2 * (f (i + 1) - f i) + (f (i + 2) - f (i + 1))) /
        (1 + (p (i + 2) - p (i + 1)) / (p (i + 1) - p i)) := by
  rw [nodeSlope_inner h]
  have w1 : 0 < p (i + 1) - p i := sub_pos.2 (hi i (by omega))
  have w2 : 0 < p (i + 2) - p (i + 1) := sub_pos.2 (hi (i + 1) h)
  have e : p (i + 2) - p i = (p (i + 2) - p (i + 1)) + (p (i + 1) - p i) := by ring
  rw [e]
  generalize p (i + 2) - p (i + 1) = b at *
  generalize p (i + 1) - p i = a at *
  field_simp
  ring

theorem scaled_left (hi : Incr n p) {i : Nat} (h : i + 2 < n) :
    (p (i + 1) - p i) * nodeSlope n p f (i + 1) =
      (((p (i + 1) - p i) / (p (i + 2) - p (i + 1))) ^ 2 * (f (i + 2) - f (i + 1)) + (f (i + 1) - f i)) /
        (1 + (p (i + 1) - p i) / (p (i + 2) - p (i + 1))) := by
  rw [nodeSlope_inner h]
  have w1 : 0 < p (i + 1) - p i := sub_pos.2 (hi i (by omega))
  have w2 : 0 < p (i + 2) - p (i + 1) := sub_pos.2 (hi (i + 1) h)
  have e : p (i + 2) - p i = (p (i + 2) - p (i + 1)) + (p (i + 1) - p i) := by ring
  rw [e]
  generalize p (i + 2) - p (i + 1) = b at *
  generalize p (i + 1) - p i = a at *
  field_simp

section
variable (hp : Incr n p) (hq : Incr n q) (hw : 0 < w)
  (hcell : ∀ i, i + 1 < n → w ≤ q (i + 1) - q i) (hclose : ∀ i < n, |q i - p i| ≤ ε * w)
  (hf : ∀ i < n, |f i| ≤ B) (hρ : MeshRatio n p ρ)
include hp hq hw hcell hclose hf hρ

theorem width_close {i : Nat} (h : i + 1 < n) :
    |(q (i + 1) - q i) - (p (i + 1) - p i)| ≤ 2 * ε * w := by
  have a := abs_le.1 (hclose i (by omega))
  have b := abs_le.1 (hclose (i + 1) h)
  rw [abs_le]
  constructor <;> linarith [a.1, a.2, b.1, b.2]

theorem scaled_right_close {i : Nat} (h : i + 2 < n) :
    |(q (i + 2) - q (i + 1)) * nodeSlope n q f (i + 1) -
      (p (i + 2) - p (i + 1)) * nodeSlope n p f (i + 1)| ≤ 4 * ε * (1 + ρ) * B := by
  have w1 : 0 < p (i + 1) - p i := sub_pos.2 (hp i (by omega))
  have w2 : 0 < p (i + 2) - p (i + 1) := sub_pos.2 (hp (i + 1) h)
  have v1 : 0 < q (i + 1) - q i := sub_pos.2 (hq i (by omega))
  have v2 : 0 < q (i + 2) - q (i + 1) := sub_pos.2 (hq (i + 1) h)
  have hε : 0 ≤ ε := nonneg_of_mul_nonneg_left ((abs_nonneg _).trans (hclose i (by omega))) hw
  have hB : 0 ≤ B := (abs_nonneg _).trans (hf i (by omega))
  rw [scaled_right hp h, scaled_right hq h]
  have d1 : |f (i + 1) - f i| ≤ 2 * B := by
    have := abs_sub (f (i + 1)) (f i); linarith [hf i (by omega), hf (i + 1) (by omega)]
  have d2 : |f (i + 2) - f (i + 1)| ≤ 2 * B := by
    have := abs_sub (f (i + 2)) (f (i + 1)); linarith [hf (i + 1) (by omega), hf (i + 2) h]
  refine (scaled_close d1 d2 (div_pos w2 w1) (div_pos v2 v1)).trans ?_
  have r := ratio_close w2 w1 v1 (width_close hp hq hw hcell hclose hf hρ (i := i + 1) h)
    (width_close hp hq hw hcell hclose hf hρ (i := i) (by omega))
  have hr : (p (i + 2) - p (i + 1)) / (p (i + 1) - p i) ≤ ρ := by
    rw [div_le_iff₀ w1]; exact (hρ i h).2
  have hd : 2 * ε * w / (q (i + 1) - q i) ≤ 2 * ε := by
    rw [div_le_iff₀ v1]; have := hcell i (by omega); gcongr
  have : 2 * ε * w / (q (i + 1) - q i) * (1 + (p (i + 2) - p (i + 1)) / (p (i + 1) - p i)) ≤
      2 * ε * (1 + ρ) := by
    have h0 := div_pos w2 w1
    gcongr
  calc _ ≤ 2 * B * (2 * ε * (1 + ρ)) := by gcongr; exact r.trans this
    _ = _ := by ring

theorem scaled_left_close {i : Nat} (h : i + 2 < n) :
    |(q (i + 1) - q i) * nodeSlope n q f (i + 1) -
      (p (i + 1) - p i) * nodeSlope n p f (i + 1)| ≤ 4 * ε * (1 + ρ) * B := by
  have w1 : 0 < p (i + 1) - p i := sub_pos.2 (hp i (by omega))
  have w2 : 0 < p (i + 2) - p (i + 1) := sub_pos.2 (hp (i + 1) h)
  have v1 : 0 < q (i + 1) - q i := sub_pos.2 (hq i (by omega))
  have v2 : 0 < q (i + 2) - q (i + 1) := sub_pos.2 (hq (i + 1) h)
  have hε : 0 ≤ ε := nonneg_of_mul_nonneg_left ((abs_nonneg _).trans (hclose i (by omega))) hw
  have hB : 0 ≤ B := (abs_nonneg _).trans (hf i (by omega))
  rw [scaled_left hp h, scaled_left hq h]
  have d1 : |f (i + 1) - f i| ≤ 2 * B := by
    have := abs_sub (f (i + 1)) (f i); linarith [hf i (by omega), hf (i + 1) (by omega)]
  have d2 : |f (i + 2) - f (i + 1)| ≤ 2 * B := by
    have := abs_sub (f (i + 2)) (f (i + 1)); linarith [hf (i + 1) (by omega), hf (i + 2) h]
  refine (scaled_close d2 d1 (div_pos w1 w2) (div_pos v1 v2)).trans ?_
  have r := ratio_close w1 w2 v2 (width_close hp hq hw hcell hclose hf hρ (i := i) (by omega))
    (width_close hp hq hw hcell hclose hf hρ (i := i + 1) h)
  have hr : (p (i + 1) - p i) / (p (i + 2) - p (i + 1)) ≤ ρ := by
    rw [div_le_iff₀ w2]; exact (hρ i h).1
  have hd : 2 * ε * w / (q (i + 2) - q (i + 1)) ≤ 2 * ε := by
    rw [div_le_iff₀ v2]; have := hcell (i + 1) h; gcongr
  have : 2 * ε * w / (q (i + 2) - q (i + 1)) * (1 + (p (i + 1) - p i) / (p (i + 2) - p (i + 1))) ≤
      2 * ε * (1 + ρ) := by
    have h0 := div_pos w1 w2
    gcongr
  calc _ ≤ 2 * B * (2 * ε * (1 + ρ)) := by gcongr; exact r.trans this
    _ = _ := by ring

/-- Both end slopes of a cell, times its width. -/
theorem scaled_slopes_close (hn : 4 ≤ n) {c : Nat} (hc : c + 1 < n) :
    |(q (c + 1) - q c) * nodeSlope n q f c - (p (c + 1) - p c) * nodeSlope n p f c| ≤
      4 * ε * (1 + ρ) * B ∧
    |(q (c + 1) - q c) * nodeSlope n q f (c + 1) - (p (c + 1) - p c) * nodeSlope n p f (c + 1)| ≤
      4 * ε * (1 + ρ) * B := by
  have v : 0 < q (c + 1) - q c := sub_pos.2 (hq c hc)
  have u : 0 < p (c + 1) - p c := sub_pos.2 (hp c hc)
  rcases Nat.eq_zero_or_pos c with rfl | hpos
  · have h1 := scaled_left_close hp hq hw hcell hclose hf hρ (i := 0) (by omega)
    simp only [zero_add] at h1 u v ⊢
    refine ⟨?_, h1⟩
    have e : ∀ r : Nat → K, 0 < r 1 - r 0 → (r 1 - r 0) * nodeSlope n r f 0 =
        2 * (f 1 - f 0) - (r 1 - r 0) * nodeSlope n r f 1 := fun r hr => by
      rw [nodeSlope_first (by omega)]; field_simp
    rw [e q v, e p u, show ∀ a b c : K, a - b - (a - c) = -(b - c) from fun a b c => by ring, abs_neg]
    exact h1
  · obtain ⟨e, rfl⟩ : ∃ e, c = e + 1 := ⟨c - 1, by omega⟩
    have h1 := scaled_right_close hp hq hw hcell hclose hf hρ (i := e) hc
    refine ⟨h1, ?_⟩
    by_cases hl : e + 3 = n
    · subst hl
      have e' : ∀ r : Nat → K, 0 < r (e + 2) - r (e + 1) →
          (r (e + 2) - r (e + 1)) * nodeSlope (e + 3) r f (e + 2) =
          2 * (f (e + 2) - f (e + 1)) - (r (e + 2) - r (e + 1)) * nodeSlope (e + 3) r f (e + 1) :=
        fun r hr => by
          rw [nodeSlope_last (i := e + 1) (by omega) rfl, mul_sub, mul_left_comm]
          congr 2
          exact mul_div_cancel₀ _ hr.ne'
      show |(q (e + 2) - q (e + 1)) * nodeSlope (e + 3) q f (e + 2) -
        (p (e + 2) - p (e + 1)) * nodeSlope (e + 3) p f (e + 2)| ≤ _
      rw [e' q v, e' p u, show ∀ a b c : K, a - b - (a - c) = -(b - c) from fun a b c => by ring,
        abs_neg]
      exact h1
    · exact scaled_left_close hp hq hw hcell hclose hf hρ (i := e + 1) (by omega)

/-- The cubic rule on displaced nodes. -/
theorem cubicPiece_moved (hn : 4 ≤ n) (lin : Bool) {x : K} {c d : Nat}
    (hc : InCell n p x c) (hin : InRange n p x) (hd : InCell n q x d) :
    |cubicPiece n q f lin d x - cubicPiece n p f lin c x| ≤ ε * (7 + ρ + 8 * ε) * B := by
  have hc1 := hc.1
  have hB : 0 ≤ B := (abs_nonneg _).trans (hf c (by omega))
  have hε : 0 ≤ ε := nonneg_of_mul_nonneg_left ((abs_nonneg _).trans (hclose c (by omega))) hw
  obtain ⟨ht0, ht1⟩ := weight_mem hp hc hin
  have hwp : 0 < p (c + 1) - p c := sub_pos.2 (hp c hc1)
  have hwq : 0 < q (c + 1) - q c := sub_pos.2 (hq c hc1)
  set t := (x - p c) / (p (c + 1) - p c) with ht
  have hx : x = p c + t * (p (c + 1) - p c) := by rw [ht, div_mul_cancel₀ _ hwp.ne']; ring
  set z := q c + t * (q (c + 1) - q c) with hz
  have hz0 : q c ≤ z := by rw [hz]; nlinarith
  have hz1 : z ≤ q (c + 1) := by rw [hz]; nlinarith
  have hzc : InCell n q z c := ⟨hc1, .inr hz0, .inr hz1⟩
  have hq0 : q 0 ≤ q c := Incr.le hq (Nat.zero_le _) (by omega)
  have hqn : q (c + 1) ≤ q (n - 1) := Incr.le hq (by omega) (by omega)
  have hxz : |x - z| ≤ ε * w := by
    have a := abs_le.1 (hclose c (by omega))
    have b := abs_le.1 (hclose (c + 1) hc1)
    rw [hx, hz, abs_le]
    constructor <;> nlinarith
  have same : |cubicPiece n q f lin c z - cubicPiece n p f lin c x| ≤ ε * (1 + ρ) * B := by
    have e1 : cubicPiece n q f lin c z = hermiteCubic (q c) (q (c + 1)) (f c) (f (c + 1))
        (nodeSlope n q f c) (nodeSlope n q f (c + 1)) z := by
      unfold cubicPiece
      rw [if_neg fun h => by linarith [h.2], if_neg fun h => by linarith [h.2]]
    have e2 : cubicPiece n p f lin c x = hermiteCubic (p c) (p (c + 1)) (f c) (f (c + 1))
        (nodeSlope n p f c) (nodeSlope n p f (c + 1)) x := by
      unfold cubicPiece
      rw [if_neg fun h => by linarith [h.2, hin.1], if_neg fun h => by linarith [h.2, hin.2]]
    have ez : (z - q c) / (q (c + 1) - q c) = t := by
      rw [hz, add_sub_cancel_left, mul_div_cancel_right₀ _ hwq.ne']
    obtain ⟨s0, s1⟩ := scaled_slopes_close hp hq hw hcell hclose hf hρ hn hc1
    rw [e1, e2]
    unfold hermiteCubic
    simp only [ez, ← ht]
    set E := 4 * ε * (1 + ρ) * B with hE
    set a0 := (q (c + 1) - q c) * nodeSlope n q f c - (p (c + 1) - p c) * nodeSlope n p f c with ha0
    set a1 := (q (c + 1) - q c) * nodeSlope n q f (c + 1) - (p (c + 1) - p c) * nodeSlope n p f (c + 1)
      with ha1
    have e3 : ∀ y0 y1 m0 m1 k0 k1 g h : K,
        (1 + 2 * t) * (1 - t) ^ 2 * y0 + t * (1 - t) ^ 2 * g * k0 + t ^ 2 * (3 - 2 * t) * y1 +
          t ^ 2 * (t - 1) * g * k1 - ((1 + 2 * t) * (1 - t) ^ 2 * y0 + t * (1 - t) ^ 2 * h * m0 +
          t ^ 2 * (3 - 2 * t) * y1 + t ^ 2 * (t - 1) * h * m1) =
        t * (1 - t) ^ 2 * (g * k0 - h * m0) - t ^ 2 * (1 - t) * (g * k1 - h * m1) := by
      intros; ring
    rw [e3, ← ha0, ← ha1]
    have b0 : 0 ≤ t * (1 - t) ^ 2 := by positivity
    have b1 : 0 ≤ t ^ 2 * (1 - t) := mul_nonneg (sq_nonneg _) (by linarith)
    have c0 := abs_sub (t * (1 - t) ^ 2 * a0) (t ^ 2 * (1 - t) * a1)
    rw [abs_mul (t * (1 - t) ^ 2), abs_mul (t ^ 2 * (1 - t)), abs_of_nonneg b0, abs_of_nonneg b1] at c0
    have c1 := mul_le_mul_of_nonneg_left s0 b0
    have c2 := mul_le_mul_of_nonneg_left s1 b1
    have hE0 : 0 ≤ E := (abs_nonneg _).trans s0
    have c3 : t * (1 - t) ^ 2 * E + t ^ 2 * (1 - t) * E ≤ E / 4 := by
      have : E / 4 - (t * (1 - t) ^ 2 * E + t ^ 2 * (1 - t) * E) = (t - 1 / 2) ^ 2 * E := by ring
      have := mul_nonneg (sq_nonneg (t - 1 / 2)) hE0
      linarith
    have c4 : E / 4 = ε * (1 + ρ) * B := by rw [hE]; ring
    linarith
  have hS : ∀ i, i + 1 < n → |f (i + 1) - f i| ≤ 2 * B / w * (q (i + 1) - q i) := fun i hi => by
    have a := abs_sub (f (i + 1)) (f i)
    have b := hf i (by omega)
    have b' := hf (i + 1) hi
    have : 2 * B / w * w ≤ 2 * B / w * (q (i + 1) - q i) := by gcongr; exact hcell i hi
    rw [div_mul_cancel₀ _ hw.ne'] at this
    linarith
  have near : ∀ {y : K}, q 0 - ε * w ≤ y → y ≤ q (n - 1) + ε * w → NearRange n q ε y := by
    intro y h1 h2
    have a := hcell 0 (by omega)
    have b := hcell (n - 2) (by omega)
    rw [show n - 2 + 1 = n - 1 by omega] at b
    rw [zero_add] at a
    have a' := mul_le_mul_of_nonneg_left a hε
    have b' := mul_le_mul_of_nonneg_left b hε
    exact ⟨by linarith, by linarith⟩
  have hεw : 0 ≤ ε * w := by positivity
  have key := cubicPiece_lip_x hq hn lin hε hS hzc hd (near (by linarith) (by linarith))
    (near (by linarith [(abs_le.1 (hclose 0 (by omega))).2, hin.1])
      (by linarith [(abs_le.1 (hclose (n - 1) (by omega))).1, hin.2]))
  have k2 : (3 + 4 * ε) * (2 * B / w) * |x - z| ≤ (3 + 4 * ε) * (2 * B / w) * (ε * w) := by gcongr
  have k3 : (3 + 4 * ε) * (2 * B / w) * (ε * w) = (6 + 8 * ε) * ε * B := by field_simp; ring
  have := abs_sub_le (cubicPiece n q f lin d x) (cubicPiece n q f lin c z) (cubicPiece n p f lin c x)
  calc _ ≤ (6 + 8 * ε) * ε * B + ε * (1 + ρ) * B := by linarith
    _ = _ := by ring

end

end

end Interpn
