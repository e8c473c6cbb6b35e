import Verif.Lemmas.ExactCells

/-! The cubic rules of the code in exact arithmetic are the pieces of the specification. -/

set_option autoImplicit false
set_option linter.unusedSectionVars false

namespace Interpn
open FloatOps

section
variable {K : Type} [Field K] [LinearOrder K] [IsStrictOrderedRing K] [FloorRing K]
attribute [local instance] exactOps

/-- The code's cubic in the Hermite form of the specification. -/
theorem hermite_eq (fma : Bool) {a b x t y0 y1 dy k0 k1 m0 m1 : K}
    (ht : t = (x - a) / (b - a)) (hdy : dy = y1 - y0) (h0 : k0 = (b - a) * m0)
    (h1 : k1 = (b - a) * m1) :
    hermite fma t y0 dy k0 k1 = hermiteCubic a b y0 y1 m0 m1 x := by
  rw [hermite_exact]
  subst ht hdy h0 h1
  simp only [hermiteCubic]
  ring

/-! Node slopes in terms of the four values of the footprint. -/

variable {n : Nat} {p f : Nat → K}

theorem nodeSlope_inner {i : Nat} (h : i + 2 < n) :
    nodeSlope n p f (i + 1) =
      ((p (i + 1) - p i) * ((f (i + 2) - f (i + 1)) / (p (i + 2) - p (i + 1))) +
        (p (i + 2) - p (i + 1)) * ((f (i + 1) - f i) / (p (i + 1) - p i))) / (p (i + 2) - p i) := by
  unfold nodeSlope
  simp only [Nat.succ_ne_zero, if_false, Nat.add_sub_cancel]
  rw [if_neg (by omega)]

theorem nodeSlope_first (h : 2 < n) :
    nodeSlope n p f 0 = 2 * ((f 1 - f 0) / (p 1 - p 0)) - nodeSlope n p f 1 := by
  have := nodeSlope_inner (p := p) (f := f) (n := n) (i := 0) (by omega)
  rw [zero_add] at this
  rw [this]
  simp [nodeSlope]

theorem nodeSlope_last {i : Nat} (hi : 0 < i) (h : i + 2 = n) :
    nodeSlope n p f (i + 1) =
      2 * ((f (i + 1) - f i) / (p (i + 1) - p i)) - nodeSlope n p f i := by
  obtain ⟨j, rfl⟩ := Nat.exists_eq_add_of_lt hi
  rw [show 0 + j + 1 = j + 1 by omega, nodeSlope_inner (i := j) (by omega)]
  unfold nodeSlope
  simp only [Nat.succ_ne_zero, if_false]
  rw [if_pos (by omega)]
  rfl

theorem centered_eq (fma : Bool) {a b c y0 y1 y2 h : K} (hh : h ≠ 0) (h1 : a < b)
    (h2 : b < c) :
    centeredDiff fma y0 y1 y2 ((b - a) / h) ((c - b) / h) =
      h * (((b - a) * ((y2 - y1) / (c - b)) + (c - b) * ((y1 - y0) / (b - a))) / (c - a)) := by
  rw [centeredDiff_exact]
  have e1 : b - a ≠ 0 := (sub_pos.2 h1).ne'
  have e2 : c - b ≠ 0 := (sub_pos.2 h2).ne'
  have e3 : c - a ≠ 0 := (sub_pos.2 (h1.trans h2)).ne'
  have e4 : (b - a) / h + (c - b) / h = (c - a) / h := by rw [← add_div]; congr 1; ring
  have e5 : (c - b) / h + (b - a) / h = (c - a) / h := by rw [← add_div]; congr 1; ring
  rw [e4, e5]
  field_simp

/-- The rule applied on a rectilinear axis is the piece of the specification. -/
theorem cubRectRule_exact (f1 f2 f3 lin : Bool) {grid : List K} (h4 : 4 ≤ grid.length)
    (hi : Incr grid.length (fun i => grid.getD i 0)) (x : K) (f : Nat → K) :
    cubRectRule f1 f2 f3 lin grid x f =
      cubicPiece grid.length (fun i => grid.getD i 0) f lin (linCell grid x) x := by
  have hb := cellsBelow_exact hi x
  have hle := cellsBelow_le grid x
  unfold cubRectRule cubCell linCell
  generalize hB : cellsBelow grid x = B at *
  generalize hp : (fun i => grid.getD i 0) = p at *
  have hp' : ∀ i, grid.getD i zero = p i := fun i => by rw [← hp]; rfl
  have hpb : ∀ i, i < grid.length → (p i < x ↔ i < B) := fun i h => by rw [← hp]; exact hb i h
  simp only [hp']
  generalize grid.length = n at *
  have two : (one : K) +. one = 2 := by show (1 : K) + 1 = 2; norm_num
  unfold satRectilinear
  by_cases hB0 : B = 0
  · -- at or below the first node
    subst hB0
    have hx : x ≤ p 0 := not_lt.1 fun h => by have := (hpb 0 (by omega)).1 h; omega
    have h01 := hi 0 (by omega)
    have h12 := hi 1 (by omega)
    have d01 : p 1 - p 0 ≠ 0 := (sub_pos.2 h01).ne'
    simp only [Nat.zero_sub, Nat.zero_min, zero_add, if_true] at *
    have k0 : -. (centeredDiff f1 (f 0) (f 1) (f 2) one ((p 2 -. p 1) /. (p 1 -. p 0))) =
        (p 0 - p 1) * nodeSlope n p f 1 := by
      have := centered_eq f1 (y0 := f 0) (y1 := f 1) (y2 := f 2) d01 h01 h12
      rw [div_self d01] at this
      show -(centeredDiff f1 (f 0) (f 1) (f 2) 1 ((p 2 - p 1) / (p 1 - p 0))) = _
      rw [this, nodeSlope_inner (i := 0) (by omega)]
      ring
    have k1 : ∀ b, naturalK1 b ((one : K) +. one) (f 0 -. f 1)
        (-. (centeredDiff f1 (f 0) (f 1) (f 2) one ((p 2 -. p 1) /. (p 1 -. p 0)))) =
        (p 0 - p 1) * nodeSlope n p f 0 := by
      intro b
      rw [naturalK1_exact, k0, two, nodeSlope_first (by omega)]
      have : (p 0 - p 1) * ((f 1 - f 0) / (p 1 - p 0)) = f 0 - f 1 := by field_simp; ring
      show 2 * (f 0 - f 1) - _ = _
      linear_combination (-2) * this
    show (if lin = true then linExtrap f3 (f 0) (naturalK1 false ((one : K) +. one) (f 0 -. f 1)
        (-. (centeredDiff f1 (f 0) (f 1) (f 2) one ((p 2 -. p 1) /. (p 1 -. p 0)))))
        ((-. (x -. p 1)) /. (p 1 -. p 0))
      else hermite f1 ((-. (x -. p 1)) /. (p 1 -. p 0)) (f 1) (f 0 -. f 1)
        (-. (centeredDiff f1 (f 0) (f 1) (f 2) one ((p 2 -. p 1) /. (p 1 -. p 0))))
        (naturalK1 false ((one : K) +. one) (f 0 -. f 1)
          (-. (centeredDiff f1 (f 0) (f 1) (f 2) one ((p 2 -. p 1) /. (p 1 -. p 0)))))) = _
    rw [k1, k0]
    have ht : (-. (x -. p 1)) /. (p 1 -. p 0) = (x - p 1) / (p 0 - p 1) := by
      show -(x - p 1) / (p 1 - p 0) = _
      rw [← neg_sub (p 1) (p 0), neg_div, div_neg]
    rw [ht]
    have hh : hermite f1 ((x - p 1) / (p 0 - p 1)) (f 1) (f 0 -. f 1)
        ((p 0 - p 1) * nodeSlope n p f 1) ((p 0 - p 1) * nodeSlope n p f 0) =
        hermiteCubic (p 0) (p 1) (f 0) (f 1) (nodeSlope n p f 0) (nodeSlope n p f 1) x := by
      rw [hermiteCubic_swap h01.ne]
      exact hermite_eq f1 rfl rfl rfl rfl
    rw [hh]
    have hn : ¬ p (n - 1) < x := fun h => by have := hi.le (i := 0) (j := n - 1) (by omega) (by omega); linarith
    unfold cubicPiece
    cases lin
    · simp
    · simp only [if_true, true_and, if_neg hn]
      rw [linExtrap_exact]
      have e : (p 0 - p 1) * ((x - p 1) / (p 0 - p 1) - 1) = x - p 0 := by
        have : p 0 - p 1 ≠ 0 := sub_ne_zero.2 h01.ne
        field_simp; ring
      have e2 : f 0 + (p 0 - p 1) * nodeSlope n p f 0 * ((x - p 1) / (p 0 - p 1) - 1) =
          f 0 + nodeSlope n p f 0 * (x - p 0) := by rw [← e]; ring
      rw [e2]
      rcases lt_or_eq_of_le hx with h | h
      · rw [if_pos h]
      · rw [if_neg (by rw [h]; exact lt_irrefl _), h, hermiteCubic_left]; ring
  · rw [if_neg hB0]
    have hx0 : p 0 < x := (hpb 0 (by omega)).2 (by omega)
    have hx0' : ¬ x < p 0 := not_lt.2 hx0.le
    by_cases hB1 : B = 1
    · -- first cell
      subst hB1
      have hx : x ≤ p 1 := not_lt.1 fun h => by have := (hpb 1 (by omega)).1 h; omega
      have h01 := hi 0 (by omega)
      have h12 := hi 1 (by omega)
      have d01 : p 1 - p 0 ≠ 0 := (sub_pos.2 h01).ne'
      simp only [Nat.reduceSub, Nat.zero_min, zero_add, if_true] at *
      have k0 : -. (centeredDiff f1 (f 0) (f 1) (f 2) one ((p 2 -. p 1) /. (p 1 -. p 0))) =
          (p 0 - p 1) * nodeSlope n p f 1 := by
        have := centered_eq f1 (y0 := f 0) (y1 := f 1) (y2 := f 2) d01 h01 h12
        rw [div_self d01] at this
        show -(centeredDiff f1 (f 0) (f 1) (f 2) 1 ((p 2 - p 1) / (p 1 - p 0))) = _
        rw [this, nodeSlope_inner (i := 0) (by omega)]
        ring
      have k1 : ∀ b, naturalK1 b ((one : K) +. one) (f 0 -. f 1)
          (-. (centeredDiff f1 (f 0) (f 1) (f 2) one ((p 2 -. p 1) /. (p 1 -. p 0)))) =
          (p 0 - p 1) * nodeSlope n p f 0 := by
        intro b
        rw [naturalK1_exact, k0, two, nodeSlope_first (by omega)]
        have : (p 0 - p 1) * ((f 1 - f 0) / (p 1 - p 0)) = f 0 - f 1 := by field_simp; ring
        show 2 * (f 0 - f 1) - _ = _
        linear_combination (-2) * this
      show hermite f1 ((-. (x -. p 1)) /. (p 1 -. p 0)) (f 1) (f 0 -. f 1)
          (-. (centeredDiff f1 (f 0) (f 1) (f 2) one ((p 2 -. p 1) /. (p 1 -. p 0))))
          (naturalK1 f2 ((one : K) +. one) (f 0 -. f 1)
            (-. (centeredDiff f1 (f 0) (f 1) (f 2) one ((p 2 -. p 1) /. (p 1 -. p 0))))) = _
      rw [k1, k0]
      have ht : (-. (x -. p 1)) /. (p 1 -. p 0) = (x - p 1) / (p 0 - p 1) := by
        show -(x - p 1) / (p 1 - p 0) = _
        rw [← neg_sub (p 1) (p 0), neg_div, div_neg]
      rw [ht]
      have hn : ¬ p (n - 1) < x := fun h => by have := hi.le (i := 1) (j := n - 1) (by omega) (by omega); linarith
      unfold cubicPiece
      simp only [hx0', hn, and_false, if_false, zero_add]
      rw [hermiteCubic_swap h01.ne]
      exact hermite_eq f1 rfl rfl rfl rfl
    · rw [if_neg hB1]
      by_cases hBn : B = n
      · -- above the last node
        subst hBn
        obtain ⟨m, rfl⟩ : ∃ m, B = m + 4 := ⟨B - 4, by omega⟩
        have hx : p (m + 3) < x := (hpb (m + 3) (by omega)).2 (by omega)
        have h12 := hi (m + 1) (by omega)
        have h23 := hi (m + 2) (by omega)
        have d23 : p (m + 3) - p (m + 2) ≠ 0 := (sub_pos.2 h23).ne'
        have em : min (m + 4 - 2) (m + 4 - 4) = m := by omega
        have ec : min (m + 4 - 1) (m + 4 - 2) = m + 2 := by omega
        simp only [em, ec, if_true]
        have k0 : centeredDiff f1 (f (m + 1)) (f (m + 2)) (f (m + 3))
            ((p (m + 2) -. p (m + 1)) /. (p (m + 3) -. p (m + 2))) one =
            (p (m + 3) - p (m + 2)) * nodeSlope (m + 4) p f (m + 2) := by
          have := centered_eq f1 (y0 := f (m + 1)) (y1 := f (m + 2)) (y2 := f (m + 3)) d23 h12 h23
          rw [div_self d23] at this
          show centeredDiff f1 (f (m + 1)) (f (m + 2)) (f (m + 3))
            ((p (m + 2) - p (m + 1)) / (p (m + 3) - p (m + 2))) 1 = _
          rw [this, nodeSlope_inner (i := m + 1) (by omega)]
        have k1 : ∀ b, naturalK1 b ((one : K) +. one) (f (m + 3) -. f (m + 2))
            (centeredDiff f1 (f (m + 1)) (f (m + 2)) (f (m + 3))
            ((p (m + 2) -. p (m + 1)) /. (p (m + 3) -. p (m + 2))) one) =
            (p (m + 3) - p (m + 2)) * nodeSlope (m + 4) p f (m + 3) := by
          intro b
          rw [naturalK1_exact, k0, two, nodeSlope_last (i := m + 2) (by omega) rfl]
          have : (p (m + 3) - p (m + 2)) * ((f (m + 3) - f (m + 2)) / (p (m + 3) - p (m + 2))) =
            f (m + 3) - f (m + 2) := by field_simp
          show 2 * (f (m + 3) - f (m + 2)) - _ = _
          linear_combination (-2) * this
        show (if lin = true then linExtrap f3 (f (m + 3))
            (naturalK1 false ((one : K) +. one) (f (m + 3) -. f (m + 2))
              (centeredDiff f1 (f (m + 1)) (f (m + 2)) (f (m + 3))
                ((p (m + 2) -. p (m + 1)) /. (p (m + 3) -. p (m + 2))) one))
            ((x -. p (m + 2)) /. (p (m + 3) -. p (m + 2)))
          else hermite f1 ((x -. p (m + 2)) /. (p (m + 3) -. p (m + 2))) (f (m + 2))
            (f (m + 3) -. f (m + 2))
            (centeredDiff f1 (f (m + 1)) (f (m + 2)) (f (m + 3))
                ((p (m + 2) -. p (m + 1)) /. (p (m + 3) -. p (m + 2))) one)
            (naturalK1 false ((one : K) +. one) (f (m + 3) -. f (m + 2))
              (centeredDiff f1 (f (m + 1)) (f (m + 2)) (f (m + 3))
                ((p (m + 2) -. p (m + 1)) /. (p (m + 3) -. p (m + 2))) one))) = _
        rw [k1, k0]
        have hh := hermite_eq f1 (a := p (m + 2)) (b := p (m + 3)) (x := x) (y0 := f (m + 2)) (y1 := f (m + 3))
          (m0 := nodeSlope (m + 4) p f (m + 2)) (m1 := nodeSlope (m + 4) p f (m + 3))
          rfl rfl rfl rfl
        unfold cubicPiece
        cases lin
        · simp only [Bool.false_eq_true, if_false, false_and]; exact hh
        · have e3 : m + 4 - 1 = m + 3 := by omega
          simp only [if_true, true_and, e3, if_neg hx0', if_pos hx]
          rw [linExtrap_exact]
          have e : (p (m + 3) - p (m + 2)) * ((x - p (m + 2)) / (p (m + 3) - p (m + 2)) - 1) =
              x - p (m + 3) := by field_simp; ring
          show f (m + 3) + _ * ((x - p (m + 2)) / (p (m + 3) - p (m + 2)) - 1) = _
          rw [← e]; ring
      · rw [if_neg hBn]
        by_cases hBl : B + 1 = n
        · -- last cell
          rw [if_pos hBl]
          obtain ⟨m, rfl⟩ : ∃ m, n = m + 4 := ⟨n - 4, by omega⟩
          obtain rfl : B = m + 3 := by omega
          have hx : ¬ p (m + 3) < x := fun h => by
            have := (hpb (m + 3) (by omega)).1 h; omega
          have h12 := hi (m + 1) (by omega)
          have h23 := hi (m + 2) (by omega)
          have d23 : p (m + 3) - p (m + 2) ≠ 0 := (sub_pos.2 h23).ne'
          have em : min (m + 3 - 2) (m + 4 - 4) = m := by omega
          have ec : min (m + 3 - 1) (m + 4 - 2) = m + 2 := by omega
          simp only [em, ec]
          have k0 : centeredDiff f1 (f (m + 1)) (f (m + 2)) (f (m + 3))
              ((p (m + 2) -. p (m + 1)) /. (p (m + 3) -. p (m + 2))) one =
              (p (m + 3) - p (m + 2)) * nodeSlope (m + 4) p f (m + 2) := by
            have := centered_eq f1 (y0 := f (m + 1)) (y1 := f (m + 2)) (y2 := f (m + 3)) d23 h12 h23
            rw [div_self d23] at this
            show centeredDiff f1 (f (m + 1)) (f (m + 2)) (f (m + 3))
              ((p (m + 2) - p (m + 1)) / (p (m + 3) - p (m + 2))) 1 = _
            rw [this, nodeSlope_inner (i := m + 1) (by omega)]
          have k1 : ∀ b, naturalK1 b ((one : K) +. one) (f (m + 3) -. f (m + 2))
              (centeredDiff f1 (f (m + 1)) (f (m + 2)) (f (m + 3))
              ((p (m + 2) -. p (m + 1)) /. (p (m + 3) -. p (m + 2))) one) =
              (p (m + 3) - p (m + 2)) * nodeSlope (m + 4) p f (m + 3) := by
            intro b
            rw [naturalK1_exact, k0, two, nodeSlope_last (i := m + 2) (by omega) rfl]
            have : (p (m + 3) - p (m + 2)) * ((f (m + 3) - f (m + 2)) / (p (m + 3) - p (m + 2))) =
              f (m + 3) - f (m + 2) := by field_simp
            show 2 * (f (m + 3) - f (m + 2)) - _ = _
            linear_combination (-2) * this
          show hermite f1 ((x -. p (m + 2)) /. (p (m + 3) -. p (m + 2))) (f (m + 2))
              (f (m + 3) -. f (m + 2))
              (centeredDiff f1 (f (m + 1)) (f (m + 2)) (f (m + 3))
                  ((p (m + 2) -. p (m + 1)) /. (p (m + 3) -. p (m + 2))) one)
              (naturalK1 f2 ((one : K) +. one) (f (m + 3) -. f (m + 2))
                (centeredDiff f1 (f (m + 1)) (f (m + 2)) (f (m + 3))
                  ((p (m + 2) -. p (m + 1)) /. (p (m + 3) -. p (m + 2))) one)) = _
          rw [k1, k0]
          unfold cubicPiece
          have e3 : m + 4 - 1 = m + 3 := by omega
          simp only [e3, hx0', hx, and_false, if_false]
          exact hermite_eq f1 rfl rfl rfl rfl
        · -- interior cell
          rw [if_neg hBl]
          obtain ⟨m, rfl⟩ : ∃ m, B = m + 2 := ⟨B - 2, by omega⟩
          have em : min (m + 2 - 2) (n - 4) = m := by omega
          have ec : min (m + 2 - 1) (n - 2) = m + 1 := by omega
          have hx : ¬ p (n - 1) < x := fun h => by
            have := (hpb (n - 1) (by omega)).1 h; omega
          have h01 := hi m (by omega)
          have h12 := hi (m + 1) (by omega)
          have h23 := hi (m + 2) (by omega)
          have d12 : p (m + 2) - p (m + 1) ≠ 0 := (sub_pos.2 h12).ne'
          simp only [em, ec]
          have k0 : centeredDiff f1 (f m) (f (m + 1)) (f (m + 2))
              ((p (m + 1) -. p m) /. (p (m + 2) -. p (m + 1))) one =
              (p (m + 2) - p (m + 1)) * nodeSlope n p f (m + 1) := by
            have := centered_eq f1 (y0 := f m) (y1 := f (m + 1)) (y2 := f (m + 2)) d12 h01 h12
            rw [div_self d12] at this
            show centeredDiff f1 (f m) (f (m + 1)) (f (m + 2))
              ((p (m + 1) - p m) / (p (m + 2) - p (m + 1))) 1 = _
            rw [this, nodeSlope_inner (i := m) (by omega)]
          have k1 : centeredDiff f1 (f (m + 1)) (f (m + 2)) (f (m + 3)) one
              ((p (m + 3) -. p (m + 2)) /. (p (m + 2) -. p (m + 1))) =
              (p (m + 2) - p (m + 1)) * nodeSlope n p f (m + 2) := by
            have := centered_eq f1 (y0 := f (m + 1)) (y1 := f (m + 2)) (y2 := f (m + 3)) d12 h12 h23
            rw [div_self d12] at this
            show centeredDiff f1 (f (m + 1)) (f (m + 2)) (f (m + 3)) 1
              ((p (m + 3) - p (m + 2)) / (p (m + 2) - p (m + 1))) = _
            rw [this, nodeSlope_inner (i := m + 1) (by omega)]
          show hermite f1 ((x -. p (m + 1)) /. (p (m + 2) -. p (m + 1))) (f (m + 1))
              (f (m + 2) -. f (m + 1))
              (centeredDiff f1 (f m) (f (m + 1)) (f (m + 2))
                ((p (m + 1) -. p m) /. (p (m + 2) -. p (m + 1))) one)
              (centeredDiff f1 (f (m + 1)) (f (m + 2)) (f (m + 3)) one
                ((p (m + 3) -. p (m + 2)) /. (p (m + 2) -. p (m + 1)))) = _
          rw [k1, k0]
          unfold cubicPiece
          simp only [hx0', hx, and_false, if_false]
          exact hermite_eq f1 rfl rfl rfl rfl

/-- The rule applied on a regular axis is the piece of the specification. -/
theorem cubRegRule_exact (f1 f2 lin : Bool) {dim : Nat} (h4 : 4 ≤ dim) {start step x : K}
    (hs : 0 < step) (f : Nat → K) :
    cubRegRule f1 f2 lin
      (clampIdx (⌊(x - start) / step⌋ - 1) (dim - 4), satRegular dim ⌊(x - start) / step⌋,
        (x - (start + step * ((clampIdx (⌊(x - start) / step⌋ - 1) (dim - 4) + 1 : Nat) : K))) /
          step) f =
      cubicPiece dim (fun i : Nat => start + step * i) f lin
        (clampIdx ⌊(x - start) / step⌋ (dim - 2)) x := by
  have hge := floor_le_iff (x := x) (start := start) hs
  have hlt := floor_lt_iff' (x := x) (start := start) hs
  generalize hZ : ⌊(x - start) / step⌋ = z at *
  have two : (one : K) +. one = 2 := by show (1 : K) + 1 = 2; norm_num
  have hd : ∀ i j : Nat, (start + step * (j : K)) - (start + step * (i : K)) = step * ((j : K) - i) :=
    fun i j => by ring
  have hne : step ≠ 0 := hs.ne'
  have hinner : ∀ i : Nat, i + 2 < dim →
      nodeSlope dim (fun i : Nat => start + step * i) f (i + 1) = (f (i + 2) - f i) / 2 / step := by
    intro i hi
    rw [nodeSlope_inner hi]
    simp only [hd]
    push_cast
    have e1 : (i : K) + 1 - i = 1 := by ring
    have e2 : (i : K) + 2 - (i + 1) = 1 := by ring
    have e3 : (i : K) + 2 - i = 2 := by ring
    rw [e1, e2, e3]
    field_simp
    ring
  have hfirst : nodeSlope dim (fun i : Nat => start + step * i) f 0 =
      (2 * (f 1 - f 0) - (f 2 - f 0) / 2) / step := by
    rw [nodeSlope_first (by omega), hinner 0 (by omega)]
    simp only [hd]
    push_cast
    have e1 : (1 : K) - 0 = 1 := by ring
    rw [e1]
    field_simp
  have hlast : ∀ i : Nat, i + 3 = dim →
      nodeSlope dim (fun i : Nat => start + step * i) f (i + 2) =
        (2 * (f (i + 2) - f (i + 1)) - (f (i + 2) - f i) / 2) / step := by
    intro i hi
    rw [nodeSlope_last (i := i + 1) (by omega) (by omega), hinner i (by omega)]
    simp only [hd]
    push_cast
    have e1 : (i : K) + 1 + 1 - (i + 1) = 1 := by ring
    rw [e1]
    field_simp
  have hp : ∀ i : Nat, start + step * ((i + 1 : Nat) : K) - (start + step * (i : K)) = step := by
    intro i; push_cast; ring
  unfold cubRegRule satRegular
  by_cases hz0 : z < 0
  · -- below the first node
    have hx : x < start := by
      have := (hlt 0).1 hz0; simpa using this
    have em : clampIdx (z - 1) (dim - 4) = 0 := by unfold clampIdx; omega
    have ec : clampIdx z (dim - 2) = 0 := by unfold clampIdx; omega
    have hn : ¬ start + step * ((dim - 1 : Nat) : K) < x := fun h => by
      have : (0 : K) ≤ step * ((dim - 1 : Nat) : K) := mul_nonneg hs.le (Nat.cast_nonneg _)
      linarith
    rw [em, ec, if_pos hz0]
    unfold cubicPiece
    show (if lin = true then linExtrap f1 (f (0 + 0)) (naturalK1 f2 ((one : K) +. one)
        (f (0 + 0) -. f (0 + 1)) ((-. (f (0 + 2) -. f (0 + 0))) /. ((one : K) +. one)))
        (-. ((x - (start + step * ((0 + 1 : Nat) : K))) / step))
      else hermite f1 (-. ((x - (start + step * ((0 + 1 : Nat) : K))) / step)) (f (0 + 1))
        (f (0 + 0) -. f (0 + 1))
        ((-. (f (0 + 2) -. f (0 + 0))) /. ((one : K) +. one))
        (naturalK1 f2 ((one : K) +. one) (f (0 + 0) -. f (0 + 1))
          ((-. (f (0 + 2) -. f (0 + 0))) /. ((one : K) +. one)))) = _
    simp only [naturalK1_exact, linExtrap_exact, two, zero_add]
    cases lin
    · simp only [Bool.false_eq_true, if_false, false_and]
      rw [hermiteCubic_swap (by simp; exact hne)]
      refine hermite_eq f1 ?_ rfl ?_ ?_
      · show -((x - (start + step * ((1 : Nat) : K))) / step) = _
        push_cast
        rw [show start + step * 0 - (start + step * 1) = -step by ring, div_neg]
      · rw [hinner 0 (by omega)]
        show (-(f 2 - f 0)) / 2 = _
        push_cast
        field_simp
        ring
      · rw [hfirst]
        show 2 * (f 0 - f 1) - (-(f 2 - f 0)) / 2 = _
        push_cast
        field_simp
        ring
    · have hx' : x < start + step * ((0 : Nat) : K) := by simpa using hx
      simp only [if_true, true_and, if_pos hx']
      rw [hfirst]
      show f 0 + (2 * (f 0 - f 1) - (-(f 2 - f 0)) / 2) *
        (-((x - (start + step * ((1 : Nat) : K))) / step) - 1) = _
      push_cast
      field_simp
      ring
  · rw [if_neg hz0]
    have hx0 : ¬ x < start + step * ((0 : Nat) : K) := by
      have := (hge 0).1 (by omega)
      push_cast at this ⊢
      exact not_lt.2 this
    by_cases hz1 : z = 0
    · -- first cell
      subst hz1
      have em : clampIdx (0 - 1) (dim - 4) = 0 := by unfold clampIdx; omega
      have ec : clampIdx 0 (dim - 2) = 0 := by unfold clampIdx; omega
      have hn : ¬ start + step * ((dim - 1 : Nat) : K) < x := fun h => by
        have h1 := (hlt 1).1 (by omega)
        have h2 : step * 1 ≤ step * ((dim - 1 : Nat) : K) :=
          mul_le_mul_of_nonneg_left (by exact_mod_cast (by omega : 1 ≤ dim - 1)) hs.le
        push_cast at h1
        linarith
      rw [em, ec, if_pos rfl]
      unfold cubicPiece
      simp only [hx0, hn, and_false, if_false]
      show hermite f1 (-. ((x - (start + step * ((0 + 1 : Nat) : K))) / step)) (f (0 + 1))
        (f (0 + 0) -. f (0 + 1))
        ((-. (f (0 + 2) -. f (0 + 0))) /. ((one : K) +. one))
        (naturalK1 f1 ((one : K) +. one) (f (0 + 0) -. f (0 + 1))
          ((-. (f (0 + 2) -. f (0 + 0))) /. ((one : K) +. one))) = _
      simp only [naturalK1_exact, two, zero_add]
      rw [hermiteCubic_swap (by simp; exact hne)]
      refine hermite_eq f1 ?_ rfl ?_ ?_
      · show -((x - (start + step * ((1 : Nat) : K))) / step) = _
        push_cast
        rw [show start + step * 0 - (start + step * 1) = -step by ring, div_neg]
      · rw [hinner 0 (by omega)]
        show (-(f 2 - f 0)) / 2 = _
        push_cast
        field_simp
        ring
      · rw [hfirst]
        show 2 * (f 0 - f 1) - (-(f 2 - f 0)) / 2 = _
        push_cast
        field_simp
        ring
    · rw [if_neg hz1]
      by_cases hzh : (dim : Int) - 2 < z
      · -- at or above the last node
        obtain ⟨m, rfl⟩ : ∃ m, dim = m + 4 := ⟨dim - 4, by omega⟩
        have em : clampIdx (z - 1) (m + 4 - 4) = m := by unfold clampIdx; omega
        have ec : clampIdx z (m + 4 - 2) = m + 2 := by unfold clampIdx; omega
        have hx : start + step * ((m + 3 : Nat) : K) ≤ x := by
          have := (hge ((m + 3 : Nat) : Int)).1 (by push_cast at hzh ⊢; omega)
          rwa [Int.cast_natCast] at this
        rw [em, ec, if_pos hzh]
        have e3 : m + 4 - 1 = m + 3 := by omega
        have ht : (x - (start + step * ((m + 1 : Nat) : K))) / step -. one =
            (x - (start + step * ((m + 2 : Nat) : K))) / step := by
          show _ - (1 : K) = _
          push_cast; field_simp; ring
        show (if lin = true then linExtrap f1 (f (m + 3)) (naturalK1 f1 ((one : K) +. one)
            (f (m + 3) -. f (m + 2)) ((f (m + 3) -. f (m + 1)) /. ((one : K) +. one)))
            ((x - (start + step * ((m + 1 : Nat) : K))) / step -. one)
          else hermite f1 ((x - (start + step * ((m + 1 : Nat) : K))) / step -. one) (f (m + 2))
            (f (m + 3) -. f (m + 2)) ((f (m + 3) -. f (m + 1)) /. ((one : K) +. one))
            (naturalK1 f1 ((one : K) +. one) (f (m + 3) -. f (m + 2))
              ((f (m + 3) -. f (m + 1)) /. ((one : K) +. one)))) = _
        simp only [naturalK1_exact, linExtrap_exact, two, ht]
        have hh : hermite f1 ((x - (start + step * ((m + 2 : Nat) : K))) / step) (f (m + 2))
            (f (m + 3) -. f (m + 2)) ((f (m + 3) -. f (m + 1)) /. 2)
            (2 * (f (m + 3) -. f (m + 2)) - (f (m + 3) -. f (m + 1)) /. 2) =
            hermiteCubic (start + step * ((m + 2 : Nat) : K)) (start + step * ((m + 2 + 1 : Nat) : K))
              (f (m + 2)) (f (m + 3))
              (nodeSlope (m + 4) (fun i : Nat => start + step * i) f (m + 2))
              (nodeSlope (m + 4) (fun i : Nat => start + step * i) f (m + 3)) x := by
          refine hermite_eq f1 ?_ rfl ?_ ?_
          · rw [hp]
          · rw [hp, hinner (m + 1) (by omega)]
            show (f (m + 3) - f (m + 1)) / 2 = _
            field_simp
          · rw [hp, hlast (m + 1) (by omega)]
            show 2 * (f (m + 3) - f (m + 2)) - (f (m + 3) - f (m + 1)) / 2 = _
            field_simp
        unfold cubicPiece
        cases lin
        · simp only [Bool.false_eq_true, if_false, false_and]
          exact hh
        · simp only [if_true, true_and, e3, if_neg hx0]
          have hl : f (m + 3) + (2 * (f (m + 3) -. f (m + 2)) - (f (m + 3) -. f (m + 1)) /. 2) *
              ((x - (start + step * ((m + 2 : Nat) : K))) / step - 1) = f (m + 3) +
              nodeSlope (m + 4) (fun i : Nat => start + step * i) f (m + 3) *
                (x - (start + step * ((m + 3 : Nat) : K))) := by
            rw [hlast (m + 1) (by omega)]
            show f (m + 3) + (2 * (f (m + 3) - f (m + 2)) - (f (m + 3) - f (m + 1)) / 2) * _ = _
            push_cast
            field_simp
            ring
          rw [hl]
          rcases lt_or_eq_of_le hx with h | h
          · rw [if_pos h]
          · rw [if_neg (by rw [h]; exact lt_irrefl _), ← h]
            have := hermiteCubic_right (a := start + step * ((m + 2 : Nat) : K))
              (b := start + step * ((m + 2 + 1 : Nat) : K)) (by push_cast; linarith)
              (f (m + 2)) (f (m + 2 + 1))
              (nodeSlope (m + 4) (fun i : Nat => start + step * i) f (m + 2))
              (nodeSlope (m + 4) (fun i : Nat => start + step * i) f (m + 2 + 1))
            rw [this]
            ring
      · rw [if_neg hzh]
        have hn : ¬ start + step * ((dim - 1 : Nat) : K) < x := fun h => by
          have h1 := (hlt ((dim - 1 : Nat) : Int)).1 (by omega)
          rw [Int.cast_natCast] at h1
          exact absurd h1 (not_lt.2 h.le)
        by_cases hzl : z = (dim : Int) - 2
        · -- last cell
          obtain ⟨m, rfl⟩ : ∃ m, dim = m + 4 := ⟨dim - 4, by omega⟩
          have em : clampIdx (z - 1) (m + 4 - 4) = m := by unfold clampIdx; omega
          have ec : clampIdx z (m + 4 - 2) = m + 2 := by unfold clampIdx; omega
          rw [em, ec, if_pos hzl]
          have ht : (x - (start + step * ((m + 1 : Nat) : K))) / step -. one =
              (x - (start + step * ((m + 2 : Nat) : K))) / step := by
            show _ - (1 : K) = _
            push_cast; field_simp; ring
          show hermite f1 ((x - (start + step * ((m + 1 : Nat) : K))) / step -. one) (f (m + 2))
              (f (m + 3) -. f (m + 2)) ((f (m + 3) -. f (m + 1)) /. ((one : K) +. one))
              (naturalK1 f1 ((one : K) +. one) (f (m + 3) -. f (m + 2))
                ((f (m + 3) -. f (m + 1)) /. ((one : K) +. one))) = _
          unfold cubicPiece
          simp only [hx0, hn, and_false, if_false]
          simp only [naturalK1_exact, two, ht]
          refine hermite_eq f1 ?_ rfl ?_ ?_
          · rw [hp]
          · rw [hp, hinner (m + 1) (by omega)]
            show (f (m + 3) - f (m + 1)) / 2 = _
            field_simp
          · rw [hp, hlast (m + 1) (by omega)]
            show 2 * (f (m + 3) - f (m + 2)) - (f (m + 3) - f (m + 1)) / 2 = _
            field_simp
        · -- interior cell
          obtain ⟨m, rfl⟩ : ∃ m : Nat, z = (m : Int) + 1 := ⟨(z - 1).toNat, by omega⟩
          have em : clampIdx ((m : Int) + 1 - 1) (dim - 4) = m := by unfold clampIdx; omega
          have ec : clampIdx ((m : Int) + 1) (dim - 2) = m + 1 := by unfold clampIdx; omega
          rw [em, ec, if_neg hzl]
          show hermite f1 ((x - (start + step * ((m + 1 : Nat) : K))) / step) (f (m + 1))
            (f (m + 2) -. f (m + 1)) ((f (m + 2) -. f m) /. ((one : K) +. one))
            ((f (m + 3) -. f (m + 1)) /. ((one : K) +. one)) = _
          unfold cubicPiece
          simp only [hx0, hn, and_false, if_false, two]
          refine hermite_eq f1 ?_ rfl ?_ ?_
          · rw [hp]
          · rw [hp, hinner m (by omega)]
            show (f (m + 2) - f m) / 2 = _
            field_simp
          · rw [hp, hinner (m + 1) (by omega)]
            show (f (m + 3) - f (m + 1)) / 2 = _
            field_simp

end

end Interpn
