import Verif.Lemmas.ExactCore
import Verif.Lemmas.TensorAlg

/-! Facts about the 1-D pieces: linearity, interpolation, reproduction of polynomials. -/

set_option autoImplicit false
set_option linter.unusedSectionVars false

namespace Interpn

section
variable {K : Type} [Field K] [LinearOrder K] [IsStrictOrderedRing K] [FloorRing K]
variable {n : Nat} {p : Nat → K} {x : K} {c : Nat}

theorem linPiece_linear (hc : c + 1 < n) : LinearOn n (fun f => linPiece p f c x) where
  congr := fun f f' h => by unfold linPiece; rw [h c (by omega), h (c + 1) hc]
  add := fun f f' => by unfold linPiece; ring
  smul := fun a f => by unfold linPiece; ring

theorem nodeSlope_add (f f' : Nat → K) (i : Nat) :
    nodeSlope n p (fun i => f i + f' i) i = nodeSlope n p f i + nodeSlope n p f' i := by
  unfold nodeSlope
  simp only
  split
  · ring
  · split <;> ring

theorem nodeSlope_smul (a : K) (f : Nat → K) (i : Nat) :
    nodeSlope n p (fun i => a * f i) i = a * nodeSlope n p f i := by
  unfold nodeSlope
  simp only
  split
  · ring
  · split <;> ring

theorem cubicPiece_linear (hn : 4 ≤ n) (lin : Bool) (hc : c + 1 < n) :
    LinearOn n (fun f => cubicPiece n p f lin c x) where
  congr := fun f f' h => by
    unfold cubicPiece
    rw [h c (by omega), h (c + 1) hc, h 0 (by omega), h (n - 1) (by omega)]
    rw [nodeSlope_congr h hn (i := 0) (by omega), nodeSlope_congr h hn (i := n - 1) (by omega),
      nodeSlope_congr h hn (i := c) (by omega), nodeSlope_congr h hn (i := c + 1) hc]
  add := fun f f' => by
    unfold cubicPiece hermiteCubic
    simp only [nodeSlope_add]
    split
    · ring
    · split <;> ring
  smul := fun a f => by
    unfold cubicPiece hermiteCubic
    simp only [nodeSlope_smul]
    split
    · ring
    · split <;> ring

/-- A node lies in a cell of which it is an end. -/
theorem node_inCell (hi : Incr n p) {i : Nat} (hn : 2 ≤ n) (h : i < n) :
    InCell n p (p i) (min i (n - 2)) := by
  refine ⟨by omega, ?_, ?_⟩
  · right; exact hi.le (by omega) h
  · rcases Nat.lt_or_ge i (n - 1) with h1 | h1
    · right; rw [Nat.min_eq_left (by omega)]; exact (hi i (by omega)).le
    · left; omega

theorem linPiece_node (hi : Incr n p) (f : Nat → K) {i : Nat} (h : i < n)
    (hc : InCell n p (p i) c) : linPiece p f c (p i) = f i := by
  have hn : 2 ≤ n := by have := hc.1; omega
  rw [linPiece_unique hi f hc (node_inCell hi hn h)]
  rcases Nat.lt_or_ge i (n - 1) with h1 | h1
  · rw [Nat.min_eq_left (by omega), linPiece_left]
  · obtain ⟨m, rfl⟩ : ∃ m, n = m + 2 := ⟨n - 2, by omega⟩
    obtain rfl : i = m + 1 := by omega
    rw [Nat.min_eq_right (by omega), Nat.add_sub_cancel]
    exact linPiece_right f (hi m (by omega))

theorem cubicPiece_node (hi : Incr n p) (f : Nat → K) (lin : Bool) {i : Nat} (h : i < n)
    (hc : InCell n p (p i) c) : cubicPiece n p f lin c (p i) = f i := by
  have hn : 2 ≤ n := by have := hc.1; omega
  rw [cubicPiece_unique hi f lin hc (node_inCell hi hn h)]
  have h0 : ¬ p i < p 0 := not_lt.2 (hi.le (by omega) h)
  have h1 : ¬ p (n - 1) < p i := not_lt.2 (hi.le (by omega) (by omega))
  unfold cubicPiece
  simp only [h0, h1, and_false, if_false]
  rcases Nat.lt_or_ge i (n - 1) with h1 | h1
  · rw [Nat.min_eq_left (by omega), hermiteCubic_left]
  · obtain ⟨m, rfl⟩ : ∃ m, n = m + 2 := ⟨n - 2, by omega⟩
    obtain rfl : i = m + 1 := by omega
    rw [Nat.min_eq_right (by omega), Nat.add_sub_cancel]
    exact hermiteCubic_right (hi m (by omega)) _ _ _ _

theorem linPiece_affine (hi : Incr n p) (hc : c + 1 < n) {φ : K → K}
    (h : ∃ a b, ∀ z, φ z = a + b * z) : linPiece p (fun i => φ (p i)) c x = φ x := by
  obtain ⟨a, b, h⟩ := h
  have hd : p (c + 1) - p c ≠ 0 := (sub_pos.2 (hi c hc)).ne'
  simp only [linPiece, h]
  field_simp
  ring

theorem nodeSlope_quadratic (hi : Incr n p) (hn : 4 ≤ n) {φ : K → K} {a b d : K}
    (h : ∀ z, φ z = a + b * z + d * z ^ 2) {i : Nat} (hin : i < n) :
    nodeSlope n p (fun i => φ (p i)) i = b + 2 * d * p i := by
  have hchord : ∀ j, j + 1 < n → (φ (p (j + 1)) - φ (p j)) / (p (j + 1) - p j) =
      b + d * (p j + p (j + 1)) := by
    intro j hj
    have hd : p (j + 1) - p j ≠ 0 := (sub_pos.2 (hi j hj)).ne'
    rw [h, h, div_eq_iff hd]; ring
  have hinner : ∀ j, j + 2 < n → nodeSlope n p (fun i => φ (p i)) (j + 1) = b + 2 * d * p (j + 1) := by
    intro j hj
    have hd : p (j + 2) - p j ≠ 0 := (sub_pos.2 (hi.lt (by omega) (by omega))).ne'
    rw [nodeSlope_inner hj, hchord j (by omega), hchord (j + 1) (by omega), div_eq_iff hd]
    show _ = _
    simp only [show j + 1 + 1 = j + 2 from rfl]
    ring
  rcases Nat.eq_zero_or_pos i with h0 | h0
  · subst h0
    rw [nodeSlope_first (by omega), hinner 0 (by omega)]
    have := hchord 0 (by omega)
    simp only [zero_add] at this
    rw [this]; ring
  · obtain ⟨j, rfl⟩ : ∃ j, i = j + 1 := ⟨i - 1, by omega⟩
    rcases Nat.lt_or_ge (j + 2) n with h1 | h1
    · exact hinner j h1
    · obtain ⟨l, rfl⟩ : ∃ l, j = l + 1 := ⟨j - 1, by omega⟩
      rw [nodeSlope_last (by omega) (by omega), hinner l (by omega), hchord (l + 1) (by omega)]
      ring

theorem hermiteCubic_quadratic {a b : K} (hab : a < b) {φ : K → K} {u v w : K}
    (h : ∀ z, φ z = u + v * z + w * z ^ 2) :
    hermiteCubic a b (φ a) (φ b) (v + 2 * w * a) (v + 2 * w * b) x = φ x := by
  have hd : b - a ≠ 0 := (sub_pos.2 hab).ne'
  simp only [hermiteCubic, h]
  field_simp
  ring

theorem cubicPiece_quadratic (hi : Incr n p) (hn : 4 ≤ n) (hc : c + 1 < n) (lin : Bool)
    (hx : lin = true → InRange n p x) {φ : K → K}
    (h : ∃ a b d, ∀ z, φ z = a + b * z + d * z ^ 2) :
    cubicPiece n p (fun i => φ (p i)) lin c x = φ x := by
  obtain ⟨a, b, d, h⟩ := h
  unfold cubicPiece
  rw [if_neg (fun hh => absurd hh.2 (not_lt.2 (hx hh.1).1)),
    if_neg (fun hh => absurd hh.2 (not_lt.2 (hx hh.1).2)),
    nodeSlope_quadratic hi hn h (by omega), nodeSlope_quadratic hi hn h hc]
  exact hermiteCubic_quadratic (hi c hc) h

theorem cubicPiece_affine (hi : Incr n p) (hn : 4 ≤ n) (hc : c + 1 < n) (lin : Bool)
    {φ : K → K} (h : ∃ a b, ∀ z, φ z = a + b * z) :
    cubicPiece n p (fun i => φ (p i)) lin c x = φ x := by
  obtain ⟨a, b, h⟩ := h
  have h' : ∀ z, φ z = a + b * z + 0 * z ^ 2 := fun z => by rw [h]; ring
  unfold cubicPiece
  rw [nodeSlope_quadratic hi hn h' (i := 0) (by omega),
    nodeSlope_quadratic hi hn h' (i := n - 1) (by omega),
    nodeSlope_quadratic hi hn h' (i := c) (by omega), nodeSlope_quadratic hi hn h' hc,
    hermiteCubic_quadratic (hi c hc) h']
  split
  · simp only [h]; ring
  · split
    · simp only [h]; ring
    · rfl

/-- Relative position in a cell. -/
theorem linPiece_weights (f : Nat → K) : linPiece p f c x =
    (1 - (x - p c) / (p (c + 1) - p c)) * f c + (x - p c) / (p (c + 1) - p c) * f (c + 1) := by
  unfold linPiece; ring

theorem weight_mem (hi : Incr n p) (hc : InCell n p x c) (hx : InRange n p x) :
    0 ≤ (x - p c) / (p (c + 1) - p c) ∧ (x - p c) / (p (c + 1) - p c) ≤ 1 := by
  have hd : 0 < p (c + 1) - p c := sub_pos.2 (hi c hc.1)
  obtain ⟨h1, h2⟩ := inRange_of_inCell hc hx
  exact ⟨div_nonneg (sub_nonneg.2 h1) hd.le, (div_le_one hd).2 (by linarith)⟩

/-- Inside the grid the linear piece is a convex combination of the two node values. -/
theorem linPiece_between (hi : Incr n p) (hc : InCell n p x c) (hx : InRange n p x)
    {f : Nat → K} {lo hi' : K} (h0 : lo ≤ f c ∧ f c ≤ hi') (h1 : lo ≤ f (c + 1) ∧ f (c + 1) ≤ hi') :
    lo ≤ linPiece p f c x ∧ linPiece p f c x ≤ hi' := by
  obtain ⟨ht0, ht1⟩ := weight_mem hi hc hx
  rw [linPiece_weights]
  generalize (x - p c) / (p (c + 1) - p c) = t at *
  constructor
  · nlinarith [mul_nonneg ht0 (sub_nonneg.2 h1.1), mul_nonneg (sub_nonneg.2 ht1) (sub_nonneg.2 h0.1)]
  · nlinarith [mul_nonneg ht0 (sub_nonneg.2 h1.2), mul_nonneg (sub_nonneg.2 ht1) (sub_nonneg.2 h0.2)]

end

end Interpn
