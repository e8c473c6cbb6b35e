import Verif.Lemmas.Weights
import Verif.Lemmas.ExampleGrids

/-! C139: the multicubic result as an explicit sum over the at most `4 ^ N` nodes around the cell; on
evenly spaced axes this is Catmull-Rom interpolation, with parabolas in the end cells. -/

set_option autoImplicit false
set_option linter.unusedSectionVars false

namespace Interpn

section
variable {K : Type} [Field K] [LinearOrder K] [IsStrictOrderedRing K] [FloorRing K] {N : Nat}

/-- Weights of the nodes `c - 1`, `c`, `c + 1`, `c + 2` of an evenly spaced axis with `n` nodes at the
relative position `t` in cell `c`: Catmull-Rom, in the first cell the parabola through the first
three nodes, in the last cell that through the last three. -/
def evenWeights (n c : Nat) (t : K) : Fin 4 → K :=
  if c = 0 then ![0, (1 - t) * (2 - t) / 2, t * (2 - t), t * (t - 1) / 2]
  else if c + 2 = n then ![t * (t - 1) / 2, (1 - t) * (1 + t), t * (1 + t) / 2, 0]
  else ![-t * (1 - t) ^ 2 / 2, (2 - 5 * t ^ 2 + 3 * t ^ 3) / 2, t * (1 + 4 * t - 3 * t ^ 2) / 2,
    -t ^ 2 * (1 - t) / 2]

/-- Weights of the nodes `c - 1`, `c`, `c + 1`, `c + 2` in an inner cell of width `h` between cells of
widths `a` and `b`, at the relative position `t`. -/
def innerWeights (a h b t : K) : Fin 4 → K :=
  ![-t * (1 - t) ^ 2 * (h ^ 2 / (a * (a + h))),
    (1 + 2 * t) * (1 - t) ^ 2 - t * (1 - t) ^ 2 * (a / (a + h)) +
      t * (1 - t) ^ 2 * (h ^ 2 / (a * (a + h))) + t ^ 2 * (1 - t) * (b / (h + b)),
    t ^ 2 * (3 - 2 * t) + t * (1 - t) ^ 2 * (a / (a + h)) +
      t ^ 2 * (1 - t) * (h ^ 2 / (b * (h + b))) - t ^ 2 * (1 - t) * (b / (h + b)),
    -t ^ 2 * (1 - t) * (h ^ 2 / (b * (h + b)))]

theorem cubicPiece_hermite {n : Nat} {p f : Nat → K} {lin : Bool} {i : Nat} {x : K}
    (h : lin = false ∨ InRange n p x) :
    cubicPiece n p f lin i x = hermiteCubic (p i) (p (i + 1)) (f i) (f (i + 1)) (nodeSlope n p f i)
      (nodeSlope n p f (i + 1)) x := by
  unfold cubicPiece
  rcases h with h | h
  · simp [h]
  · rw [if_neg fun q => not_lt.2 h.1 q.2, if_neg fun q => not_lt.2 h.2 q.2]

theorem cubicPiece_inner {n : Nat} {p : Nat → K} (hp : Incr n p) (f : Nat → K) {lin : Bool} {c : Nat}
    {x t : K} (h1 : 1 ≤ c) (h2 : c + 2 < n) (hr : lin = false ∨ InRange n p x)
    (ht : x = p c + t * (p (c + 1) - p c)) :
    cubicPiece n p f lin c x = ∑ b : Fin 4, innerWeights (p c - p (c - 1)) (p (c + 1) - p c)
      (p (c + 2) - p (c + 1)) t b * f (c + b.val - 1) := by
  obtain ⟨d, rfl⟩ : ∃ d, c = d + 1 := ⟨c - 1, by omega⟩
  have ha : 0 < p (d + 1) - p d := sub_pos.2 (hp d (by omega))
  have hh : 0 < p (d + 2) - p (d + 1) := sub_pos.2 (hp (d + 1) (by omega))
  have hb : 0 < p (d + 3) - p (d + 2) := sub_pos.2 (hp (d + 2) (by omega))
  rw [cubicPiece_hermite hr]
  have s0 : nodeSlope n p f (d + 1) = ((p (d + 1) - p d) * ((f (d + 2) - f (d + 1)) /
      (p (d + 2) - p (d + 1))) + (p (d + 2) - p (d + 1)) * ((f (d + 1) - f d) / (p (d + 1) - p d))) /
      ((p (d + 1) - p d) + (p (d + 2) - p (d + 1))) := by
    simp only [nodeSlope]
    rw [if_neg (by omega), if_neg (by omega)]
    simp only [Nat.add_sub_cancel]
    congr 1; ring
  have s1 : nodeSlope n p f (d + 2) = ((p (d + 2) - p (d + 1)) * ((f (d + 3) - f (d + 2)) /
      (p (d + 3) - p (d + 2))) + (p (d + 3) - p (d + 2)) * ((f (d + 2) - f (d + 1)) /
      (p (d + 2) - p (d + 1)))) / ((p (d + 2) - p (d + 1)) + (p (d + 3) - p (d + 2))) := by
    simp only [nodeSlope]
    rw [if_neg (by omega), if_neg (by omega)]
    simp only [show d + 2 - 1 = d + 1 by omega]
    congr 1; ring
  simp only [show d + 1 + 1 = d + 2 by omega, show d + 1 + 2 = d + 3 by omega,
    show d + 1 - 1 = d by omega] at *
  rw [s0, s1, Fin.sum_univ_four]
  have ht' : (x - p (d + 1)) / (p (d + 2) - p (d + 1)) = t := by
    rw [ht, add_sub_cancel_left, mul_div_cancel_right₀ _ hh.ne']
  unfold hermiteCubic innerWeights
  rw [ht']
  simp only [Fin.isValue, Matrix.cons_val, Fin.val_zero, Fin.val_one, Fin.val_two,
    show ((3 : Fin 4) : Nat) = 3 from rfl, show d + 1 + 0 - 1 = d by omega,
    show d + 1 + 1 - 1 = d + 1 by omega, show d + 1 + 2 - 1 = d + 2 by omega,
    show d + 1 + 3 - 1 = d + 3 by omega]
  have hah := add_pos ha hh
  have hhb := add_pos hh hb
  generalize p (d + 1) - p d = a at *
  generalize p (d + 2) - p (d + 1) = h at *
  generalize p (d + 3) - p (d + 2) = b at *
  have a0 := ha.ne'
  have h0 := hh.ne'
  have b0 := hb.ne'
  have ah0 := hah.ne'
  have hb0 := hhb.ne'
  field_simp
  ring

theorem cubicPiece_even {n : Nat} (hn : 4 ≤ n) {s d : K} (hd : 0 < d) (f : Nat → K) {lin : Bool} {c : Nat}
    {x t : K} (hc : c + 1 < n) (hr : lin = false ∨ InRange n (fun i => s + d * (i : K)) x)
    (ht : x = s + d * (c + t)) :
    cubicPiece n (fun i => s + d * (i : K)) f lin c x =
      ∑ b : Fin 4, evenWeights n c t b * f (c + b.val - 1) := by
  have hd0 := hd.ne'
  by_cases h0 : c = 0
  · subst h0
    rw [cubicPiece_hermite hr, Fin.sum_univ_four]
    have s0 : nodeSlope n (fun i => s + d * (i : K)) f 0 = (-3 * f 0 + 4 * f 1 - f 2) / (2 * d) := by
      simp only [nodeSlope, if_true]
      norm_num
      rw [show d * 2 - d = d by ring]
      field_simp; ring
    have s1 : nodeSlope n (fun i => s + d * (i : K)) f 1 = (f 2 - f 0) / (2 * d) := by
      simp only [nodeSlope]
      rw [if_neg (by omega), if_neg (by omega)]
      norm_num
      rw [show d * 2 - d = d by ring]
      field_simp; ring
    have ht' : (x - s) / d = t := by rw [ht]; field_simp; simp
    unfold hermiteCubic evenWeights
    simp only [if_true, Nat.zero_add, s0, s1]
    simp only [Fin.isValue, Matrix.cons_val, Fin.val_zero, Fin.val_one, Fin.val_two,
      show ((3 : Fin 4) : Nat) = 3 from rfl]
    norm_num
    rw [ht']
    field_simp; ring
  by_cases hl : c + 2 = n
  · subst hl
    obtain ⟨e, rfl⟩ : ∃ e, c = e + 1 := ⟨c - 1, by omega⟩
    rw [cubicPiece_hermite hr, Fin.sum_univ_four]
    have s0 : nodeSlope (e + 1 + 2) (fun i => s + d * (i : K)) f (e + 1) =
        (f (e + 2) - f e) / (2 * d) := by
      simp only [nodeSlope]
      rw [if_neg (by omega), if_neg (by omega)]
      simp only [Nat.add_sub_cancel]
      push_cast
      rw [show s + d * ((e : K) + 1 + 1) - (s + d * (e + 1)) = d by ring,
        show s + d * ((e : K) + 1) - (s + d * e) = d by ring,
        show s + d * ((e : K) + 1 + 1) - (s + d * e) = 2 * d by ring]
      field_simp; ring
    have s1 : nodeSlope (e + 1 + 2) (fun i => s + d * (i : K)) f (e + 2) =
        (3 * f (e + 2) - 4 * f (e + 1) + f e) / (2 * d) := by
      simp only [nodeSlope]
      rw [if_neg (by omega), if_pos trivial]
      simp only [show e + 2 - 1 = e + 1 by omega, Nat.add_sub_cancel]
      push_cast
      rw [show s + d * ((e : K) + 1 + 1) - (s + d * (e + 1)) = d by ring,
        show s + d * ((e : K) + 1) - (s + d * e) = d by ring,
        show s + d * ((e : K) + 1 + 1) - (s + d * e) = 2 * d by ring]
      field_simp; ring
    have ht' : (x - (s + d * ((e : K) + 1))) / d = t := by
      rw [ht]; push_cast; field_simp; ring
    unfold hermiteCubic evenWeights
    simp only [h0, if_false, if_true, show e + 1 + 1 = e + 2 by omega, s0, s1]
    simp only [Fin.isValue, Matrix.cons_val, Fin.val_zero, Fin.val_one, Fin.val_two,
      show ((3 : Fin 4) : Nat) = 3 from rfl, show e + 1 + 0 - 1 = e by omega,
      show e + 1 + 1 - 1 = e + 1 by omega, show e + 1 + 2 - 1 = e + 2 by omega]
    push_cast
    rw [show s + d * ((e : K) + 2) - (s + d * (e + 1)) = d by ring, ht']
    field_simp; ring
  · have hp : Incr n fun i => s + d * (i : K) := fun i _ => by push_cast; linarith
    rw [cubicPiece_inner hp f (t := t) (by omega) (by omega) hr (by rw [ht]; push_cast; ring)]
    refine Finset.sum_congr rfl fun b _ => ?_
    congr 1
    have e1 : s + d * (c : K) - (s + d * ((c - 1 : Nat) : K)) = d := by
      rw [Nat.cast_sub (by omega)]; push_cast; ring
    have e2 : s + d * ((c + 1 : Nat) : K) - (s + d * (c : K)) = d := by push_cast; ring
    have e3 : s + d * ((c + 2 : Nat) : K) - (s + d * ((c + 1 : Nat) : K)) = d := by push_cast; ring
    simp only [e1, e2, e3]
    unfold innerWeights evenWeights
    rw [if_neg h0, if_neg hl]
    have q1 : d ^ 2 / (d * (d + d)) = 1 / 2 := by field_simp; norm_num
    have q2 : d / (d + d) = 1 / 2 := by field_simp; norm_num
    rw [q1, q2]
    fin_cases b <;> simp <;> ring

/-- C139: in an inner cell of either kind of grid, the result is the sum over the `4 ^ N` nodes
`c - 1`, …, `c + 2` of the products of the weights given by the widths of the cell and its two
neighbors on each axis. -/
theorem C139_inner (e : Evaluator) (he : e.Fits N) (fma : Bool) (G : Axes K N) (vals : List K)
    (lin : Bool) (hG : G.Valid 4 vals) (g : (Fin N → Nat) → K) (hg : Samples G.size vals g)
    (x : Fin N → K) (hx : G.RepresentableCubic x) (c : Fin N → Nat) (t : Fin N → K)
    (hc : ∀ k, 1 ≤ c k ∧ c k + 2 < G.size k) (ht0 : ∀ k, 0 ≤ t k ∧ t k ≤ 1)
    (ht : ∀ k, x k = G.node k (c k) + t k * (G.node k (c k + 1) - G.node k (c k))) :
    multicubicAt e fma G vals lin x = .ok (∑ b : Fin N → Fin 4,
      (∏ k, innerWeights (G.node k (c k) - G.node k (c k - 1)) (G.node k (c k + 1) - G.node k (c k))
        (G.node k (c k + 2) - G.node k (c k + 1)) (t k) (b k)) * g fun k => c k + (b k).val - 1) := by
  have hcell : ∀ k, G.node k (c k) ≤ x k ∧ x k ≤ G.node k (c k + 1) := fun k => by
    have hd : 0 < G.node k (c k + 1) - G.node k (c k) := sub_pos.2 (hG.incr k _ (by have := hc k; omega))
    have h1 := mul_nonneg (ht0 k).1 hd.le
    have h2 := mul_le_mul_of_nonneg_right (ht0 k).2 hd.le
    rw [ht k]
    constructor <;> linarith
  have hin : ∀ k, InRange (G.size k) (G.node k) (x k) := fun k =>
    ⟨((hG.incr k).le (i := 0) (by omega) (by have := hc k; omega)).trans (hcell k).1,
      (hcell k).2.trans ((hG.incr k).le (by have := hc k; omega) (by have := hc k; omega))⟩
  rw [multicubicAt_eq e he fma G vals lin hG g hg x hx c fun k =>
    ⟨by have := hc k; omega, .inr (hcell k).1, .inr (hcell k).2⟩]
  congr 1
  rw [axisByAxis_sum _ g (fun _ => (Finset.univ : Finset (Fin 4))) (fun k b => c k + b.val - 1)
    (fun k b => innerWeights (G.node k (c k) - G.node k (c k - 1))
      (G.node k (c k + 1) - G.node k (c k)) (G.node k (c k + 2) - G.node k (c k + 1)) (t k) b)
    fun k f => cubicPiece_inner (hG.incr k) f (hc k).1 (hc k).2 (.inr (hin k)) (ht k),
    Fintype.piFinset_univ]

/-- C139: on a regular grid, in all cells, and beyond the ends without `linearize_extrapolation`. -/
theorem C139_regular (e : Evaluator) (he : e.Fits N) (fma : Bool) (dims : Fin N → Nat)
    (starts steps : Fin N → K) (vals : List K) (lin : Bool)
    (hG : (Axes.regular dims starts steps).Valid 4 vals) (g : (Fin N → Nat) → K)
    (hg : Samples dims vals g) (x : Fin N → K)
    (hx : (Axes.regular dims starts steps).RepresentableCubic x) (c : Fin N → Nat) (t : Fin N → K)
    (hc : ∀ k, InCell (dims k) (fun i => starts k + steps k * (i : K)) (x k) (c k))
    (hr : lin = false ∨ ∀ k, InRange (dims k) (fun i => starts k + steps k * (i : K)) (x k))
    (ht : ∀ k, x k = starts k + steps k * (c k + t k)) :
    multicubicAt e fma (.regular dims starts steps) vals lin x = .ok (∑ b : Fin N → Fin 4,
      (∏ k, evenWeights (dims k) (c k) (t k) (b k)) * g fun k => c k + (b k).val - 1) := by
  rw [multicubicAt_eq e he fma _ vals lin hG g hg x hx c hc]
  congr 1
  have hd : ∀ k, 0 < steps k := fun k => by
    have h4 : 4 ≤ dims k := hG.big k
    have := hG.incr k 0 (show 0 + 1 < dims k by omega)
    simp only [Axes.node] at this
    push_cast at this
    linarith
  have := axisByAxis_sum (fun k f => cubicPiece (dims k) (fun i => starts k + steps k * (i : K)) f lin
    (c k) (x k)) g (fun _ => (Finset.univ : Finset (Fin 4))) (fun k b => c k + b.val - 1)
    (fun k b => evenWeights (dims k) (c k) (t k) b)
    fun k f => cubicPiece_even (hG.big k) (hd k) f (hc k).1 (hr.imp_right fun h => h k) (ht k)
  rw [Fintype.piFinset_univ] at this
  exact this

/-- C139: in the middle of an inner cell of a regular grid the weights on each axis are -1/16, 9/16,
9/16 and -1/16. -/
theorem C139_middle (e : Evaluator) (he : e.Fits N) (fma : Bool) (dims : Fin N → Nat)
    (starts steps : Fin N → K) (vals : List K) (lin : Bool)
    (hG : (Axes.regular dims starts steps).Valid 4 vals) (g : (Fin N → Nat) → K)
    (hg : Samples dims vals g) (c : Fin N → Nat) (hc : ∀ k, 1 ≤ c k ∧ c k + 2 < dims k)
    (hx : (Axes.regular dims starts steps).RepresentableCubic fun k =>
      starts k + steps k * (c k + 1 / 2)) :
    multicubicAt e fma (.regular dims starts steps) vals lin
      (fun k => starts k + steps k * (c k + 1 / 2)) = .ok (∑ b : Fin N → Fin 4,
      (∏ k, (![-1 / 16, 9 / 16, 9 / 16, -1 / 16] : Fin 4 → K) (b k)) *
        g fun k => c k + (b k).val - 1) := by
  have hd : ∀ k, 0 < steps k := fun k => by
    have := hG.incr k 0 (show 0 + 1 < dims k by have := hc k; omega)
    simp only [Axes.node] at this
    push_cast at this
    linarith
  have hmul : ∀ k (i : Nat), c k + 1 ≤ i → starts k + steps k * ((c k : K) + 1 / 2) ≤
      starts k + steps k * (i : K) := fun k i hi => by
    have h1 : ((c k : K) + 1) ≤ i := by exact_mod_cast hi
    have h2 : (c k : K) + 1 / 2 ≤ i := by linarith
    have := mul_le_mul_of_nonneg_left h2 (hd k).le
    linarith
  have hmul' : ∀ k (i : Nat), i ≤ c k → starts k + steps k * (i : K) ≤
      starts k + steps k * ((c k : K) + 1 / 2) := fun k i hi => by
    have h1 : (i : K) ≤ c k := by exact_mod_cast hi
    have h2 : (i : K) ≤ (c k : K) + 1 / 2 := by linarith
    have := mul_le_mul_of_nonneg_left h2 (hd k).le
    linarith
  rw [C139_regular e he fma dims starts steps vals lin hG g hg _ hx c (fun _ => 1 / 2)
    (fun k => ⟨by have := hc k; omega, .inr (hmul' k _ le_rfl), .inr (hmul k _ le_rfl)⟩)
    (.inr fun k => ⟨hmul' k 0 (by omega), hmul k _ (by have := hc k; omega)⟩) fun _ => rfl]
  congr 1
  refine Finset.sum_congr rfl fun b _ => ?_
  congr 1
  refine Finset.prod_congr rfl fun k _ => ?_
  unfold evenWeights
  rw [if_neg (by have := hc k; omega), if_neg (by have := hc k; omega)]
  generalize b k = q
  fin_cases q <;> norm_num

end

section Examples

attribute [local instance] ratOps

/-- Hypotheses of `C139_inner` are satisfied: cells of widths 1, 2 and 1; a quarter into the middle
one. -/
example :
    let G : Axes ℚ 1 := .rectilinear fun _ => [0, 1, 3, 4]
    G.Valid 4 [5, 7, 1, 2] ∧ G.RepresentableCubic (fun _ => 3 / 2) ∧
      (∀ k, 1 ≤ (fun _ => 1 : Fin 1 → Nat) k ∧ 1 + 2 < G.size k) ∧
      (∀ k, (3 / 2 : ℚ) = G.node k 1 + 1 / 4 * (G.node k 2 - G.node k 1)) ∧
      List.ofFn (innerWeights 1 2 1 (1 / 4 : ℚ)) = [-3 / 16, 1, 1 / 4, -1 / 16] ∧
      multicubicAt .flat false G [5, 7, 1, 2] true (fun _ => 3 / 2) = .ok (99 / 16) := by
  intro G
  refine ⟨valid_of_check ?_, ?_⟩ <;> decide +kernel

/-- Hypotheses of `C139_regular` are satisfied: in the first, an inner and the last cell, and beyond
the end. -/
example :
    let G : Axes ℚ 1 := .regular (fun _ => 5) (fun _ => 1) fun _ => 2
    G.Valid 4 [5, 7, 1, 2, 3] ∧
      (∀ x ∈ [(3 / 2 : ℚ), 11 / 2, 15 / 2, 11], G.RepresentableCubic fun _ => x) ∧
      InCell 5 (fun i => (1 : ℚ) + 2 * i) (3 / 2) 0 ∧ InCell 5 (fun i => (1 : ℚ) + 2 * i) (11 / 2) 2 ∧
      InCell 5 (fun i => (1 : ℚ) + 2 * i) (15 / 2) 3 ∧ InCell 5 (fun i => (1 : ℚ) + 2 * i) 11 3 ∧
      [(3 / 2 : ℚ), 11 / 2, 15 / 2, 11].map (fun x =>
        multicubicAt .flat false G [5, 7, 1, 2, 3] false fun _ => x) =
        [(0, 1 / 4), (2, 1 / 4), (3, 1 / 4), (3, 2)].map (fun q : Nat × ℚ =>
          .ok (∑ b : Fin 4, evenWeights 5 q.1 q.2 b * [5, 7, 1, 2, 3].getD (q.1 + b.val - 1) 0)) := by
  intro G
  refine ⟨valid_of_check ?_, ?_⟩ <;> decide +kernel

/-- Hypotheses of `C139_middle` are satisfied: the middle of the middle cell in two dimensions. -/
example :
    let G : Axes ℚ 2 := .regular (fun _ => 4) (fun _ => 0) fun _ => 1
    G.Valid 4 (List.replicate 15 0 ++ [256]) ∧
      (G.RepresentableCubic fun _ => 0 + 1 * ((1 : Nat) + 1 / 2)) ∧
      multicubicAt .flat false G (List.replicate 15 0 ++ [256]) true (fun _ => 3 / 2) = .ok 1 ∧
      multicubicAt .flat false G (List.replicate 5 0 ++ [256] ++ List.replicate 10 0) true
        (fun _ => 3 / 2) = .ok 81 := by
  intro G
  refine ⟨valid_of_check ?_, ?_⟩ <;> decide +kernel

end Examples

end Interpn
