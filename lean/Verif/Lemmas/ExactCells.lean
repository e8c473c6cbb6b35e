import Verif.Spec.Grid
import Verif.Lemmas.Api
import Verif.Lemmas.ExactRules
import Mathlib.Tactic.FieldSimp
import Mathlib.Tactic.LinearCombination

/-! Cells of an axis in exact arithmetic, and the pieces of the interpolants on them. -/

set_option autoImplicit false
set_option linter.unusedSectionVars false

namespace Interpn
open FloatOps

section
variable {K : Type} [Field K] [LinearOrder K] [IsStrictOrderedRing K]
variable {n : Nat} {p : Nat → K}

/-- Strictly increasing nodes. -/
abbrev Incr (n : Nat) (p : Nat → K) : Prop := ∀ i, i + 1 < n → p i < p (i + 1)

theorem Incr.lt (h : Incr n p) {i j : Nat} (hij : i < j) (hj : j < n) : p i < p j := by
  induction j with
  | zero => omega
  | succ j ih =>
    rcases Nat.lt_or_ge i j with h1 | h1
    · exact lt_trans (ih h1 (by omega)) (h j hj)
    · have : i = j := by omega
      subst this; exact h i hj

theorem Incr.le (h : Incr n p) {i j : Nat} (hij : i ≤ j) (hj : j < n) : p i ≤ p j := by
  rcases Nat.lt_or_ge i j with h1 | h1
  · exact (h.lt h1 hj).le
  · have : i = j := by omega
    subst this; exact le_rfl

theorem exists_inCell (hn : 2 ≤ n) (x : K) : ∃ i, InCell n p x i := by
  classical
  -- the first cell whose upper node is at or above `x`, or the last cell
  have hP : ∃ i, i + 2 = n ∨ x ≤ p (i + 1) := ⟨n - 2, Or.inl (by omega)⟩
  refine ⟨Nat.find hP, ?_, ?_, Nat.find_spec hP⟩
  · have := Nat.find_min' hP (m := n - 2) (Or.inl (by omega)); omega
  · rcases Nat.eq_zero_or_pos (Nat.find hP) with h | h
    · exact Or.inl h
    · right
      have := Nat.find_min hP (m := Nat.find hP - 1) (by omega)
      rw [not_or, not_le, Nat.sub_add_cancel h] at this
      exact this.2.le

/-- Two cells containing the same point are equal, or adjacent with the point at the node
between them. -/
theorem InCell.unique (hi : Incr n p) {x : K} {c d : Nat} (hc : InCell n p x c)
    (hd : InCell n p x d) : c = d ∨ (d = c + 1 ∧ x = p d) ∨ (c = d + 1 ∧ x = p c) := by
  have key : ∀ {c d : Nat}, InCell n p x c → InCell n p x d → c < d → d = c + 1 ∧ x = p d := by
    intro c d hc hd h
    have h1 : p d ≤ x := hd.2.1.resolve_left (by omega)
    have h2 : x ≤ p (c + 1) := hc.2.2.resolve_left (by have := hd.1; omega)
    have h3 : p (c + 1) ≤ p d := hi.le (by omega) (by have := hd.1; omega)
    have h4 : d = c + 1 := by
      by_contra hne
      have := hi.lt (i := c + 1) (j := d) (by omega) (by have := hd.1; omega)
      exact absurd (lt_of_lt_of_le this (h1.trans h2)) (lt_irrefl _)
    exact ⟨h4, le_antisymm (h2.trans h3) h1⟩
  rcases lt_trichotomy c d with h | h | h
  · exact Or.inr (Or.inl (key hc hd h))
  · exact Or.inl h
  · exact Or.inr (Or.inr (key hd hc h))

theorem linPiece_left (f : Nat → K) (i : Nat) : linPiece p f i (p i) = f i := by
  simp [linPiece]

theorem linPiece_right (f : Nat → K) {i : Nat} (h : p i < p (i + 1)) :
    linPiece p f i (p (i + 1)) = f (i + 1) := by
  have : p (i + 1) - p i ≠ 0 := (sub_pos.2 h).ne'
  simp [linPiece, div_self this]

/-- The piecewise linear interpolant does not depend on the choice of the cell. -/
theorem linPiece_unique (hi : Incr n p) (f : Nat → K) {x : K} {c d : Nat} (hc : InCell n p x c)
    (hd : InCell n p x d) : linPiece p f c x = linPiece p f d x := by
  rcases hc.unique hi hd with rfl | ⟨rfl, rfl⟩ | ⟨rfl, rfl⟩
  · rfl
  · rw [linPiece_left, linPiece_right f (hi c hc.1)]
  · rw [linPiece_left, linPiece_right f (hi d hd.1)]

theorem hermiteCubic_left (a b y0 y1 m0 m1 : K) : hermiteCubic a b y0 y1 m0 m1 a = y0 := by
  simp [hermiteCubic]

theorem hermiteCubic_right {a b : K} (h : a < b) (y0 y1 m0 m1 : K) :
    hermiteCubic a b y0 y1 m0 m1 b = y1 := by
  have : b - a ≠ 0 := (sub_pos.2 h).ne'
  simp [hermiteCubic, div_self this]; ring

theorem hermiteCubic_swap {a b : K} (h : a ≠ b) (y0 y1 m0 m1 x : K) :
    hermiteCubic a b y0 y1 m0 m1 x = hermiteCubic b a y1 y0 m1 m0 x := by
  have h1 : b - a ≠ 0 := sub_ne_zero.2 h.symm
  have h2 : a - b ≠ 0 := sub_ne_zero.2 h
  have : (x - b) / (a - b) = 1 - (x - a) / (b - a) := by
    field_simp; ring
  simp only [hermiteCubic, this]
  ring

/-- The cubic interpolant does not depend on the choice of the cell. -/
theorem cubicPiece_unique (hi : Incr n p) (f : Nat → K) (lin : Bool) {x : K} {c d : Nat}
    (hc : InCell n p x c) (hd : InCell n p x d) :
    cubicPiece n p f lin c x = cubicPiece n p f lin d x := by
  unfold cubicPiece
  split
  · rfl
  · split
    · rfl
    · rcases hc.unique hi hd with rfl | ⟨rfl, rfl⟩ | ⟨rfl, rfl⟩
      · rfl
      · rw [hermiteCubic_left, hermiteCubic_right (hi c hc.1)]
      · rw [hermiteCubic_left, hermiteCubic_right (hi d hd.1)]

theorem inRange_of_inCell {x : K} {c : Nat} (hc : InCell n p x c)
    (hx : InRange n p x) : p c ≤ x ∧ x ≤ p (c + 1) := by
  constructor
  · rcases hc.2.1 with h | h
    · rw [h]; exact hx.1
    · exact h
  · rcases hc.2.2 with h | h
    · have : c + 1 = n - 1 := by omega
      rw [this]; exact hx.2
    · exact h

end

section
variable {K : Type} [Field K] [LinearOrder K] [IsStrictOrderedRing K] [FloorRing K]

attribute [local instance] exactOps

theorem truncZ_intCast (z : Int) : truncZ (z : K) = z := by
  unfold truncZ; split <;> simp

theorem rawCell_exact (start step x : K) :
    rawCell start step x = if isizeMin ≤ ⌊(x - start) / step⌋ ∧ ⌊(x - start) / step⌋ ≤ isizeMax
      then some ⌊(x - start) / step⌋ else none := by
  show (if isizeMin ≤ truncZ ((⌊(x - start) / step⌋ : Int) : K) ∧
    truncZ ((⌊(x - start) / step⌋ : Int) : K) ≤ isizeMax then
      some (truncZ ((⌊(x - start) / step⌋ : Int) : K)) else none) = _
  simp only [truncZ_intCast]

variable {start step x : K} {dim : Nat}

theorem floor_le_iff (hs : 0 < step) (z : Int) :
    z ≤ ⌊(x - start) / step⌋ ↔ start + step * z ≤ x := by
  rw [Int.le_floor, le_div_iff₀ hs]
  constructor <;> intro h <;> linarith

theorem floor_lt_iff' (hs : 0 < step) (z : Int) :
    ⌊(x - start) / step⌋ < z ↔ x < start + step * z := by
  rw [← not_le, floor_le_iff hs, not_le]

/-- The cell computed on a regular axis contains the observation. -/
theorem regular_inCell (hs : 0 < step) (h2 : 2 ≤ dim) :
    InCell dim (fun i : Nat => start + step * i) x (clampIdx ⌊(x - start) / step⌋ (dim - 2)) := by
  have hc := clampIdx_le ⌊(x - start) / step⌋ (dim - 2)
  refine ⟨by omega, ?_, ?_⟩
  · by_cases h : ⌊(x - start) / step⌋ ≤ 0
    · left; unfold clampIdx; omega
    · right
      have h3 : ((clampIdx ⌊(x - start) / step⌋ (dim - 2) : Nat) : Int) ≤ ⌊(x - start) / step⌋ := by
        unfold clampIdx; omega
      simpa using (floor_le_iff hs _).1 h3
  · by_cases h : ((dim - 2 : Nat) : Int) ≤ ⌊(x - start) / step⌋
    · left; unfold clampIdx; omega
    · right
      have h3 : ⌊(x - start) / step⌋ <
          ((clampIdx ⌊(x - start) / step⌋ (dim - 2) + 1 : Nat) : Int) := by
        unfold clampIdx; omega
      have := (floor_lt_iff' hs _).1 h3
      push_cast at this ⊢
      exact this.le

theorem linRegAxis_exact (fma : Bool) (hr : isizeMin ≤ ⌊(x - start) / step⌋ ∧
    ⌊(x - start) / step⌋ ≤ isizeMax) :
    linRegAxis fma dim start step x =
      some (clampIdx ⌊(x - start) / step⌋ (dim - 2),
        (x - (start + step * (clampIdx ⌊(x - start) / step⌋ (dim - 2) : Nat))) / step) := by
  rw [linRegAxis_fma]
  unfold linRegAxis
  rw [rawCell_exact, if_pos hr]
  simp

theorem linRegAxis_exact_none (fma : Bool) (hr : ¬ (isizeMin ≤ ⌊(x - start) / step⌋ ∧
    ⌊(x - start) / step⌋ ≤ isizeMax)) : linRegAxis fma dim start step x = none := by
  unfold linRegAxis
  rw [rawCell_exact, if_neg hr]

/-- The counted number of nodes below `x`, on strictly increasing nodes. -/
theorem cellsBelow_exact {grid : List K} (hi : Incr grid.length (fun i => grid.getD i 0)) (x : K)
    (i : Nat) (hl : i < grid.length) : grid.getD i 0 < x ↔ i < cellsBelow grid x := by
  rw [← cellsBelow_iff (grid := grid) (v := x) ?_ i hl]
  · rw [exact_lt, decide_eq_true_iff, List.getD_eq_getElem grid 0 hl]
  · intro i j hij hj h
    rw [exact_lt, decide_eq_true_iff] at *
    have := hi.le hij hj
    simp only [List.getD_eq_getElem grid 0 hj,
      List.getD_eq_getElem grid 0 (n := i) (by omega)] at this
    exact lt_of_le_of_lt this h

theorem rectilinear_inCell {grid : List K} (h2 : 2 ≤ grid.length)
    (hi : Incr grid.length (fun i => grid.getD i 0)) (x : K) :
    InCell grid.length (fun i => grid.getD i 0) x (linCell grid x) := by
  have hb := linCell_bound h2 x
  have hle := cellsBelow_le grid x
  refine ⟨by omega, ?_, ?_⟩
  · by_cases h : cellsBelow grid x ≤ 1
    · left; unfold linCell; omega
    · right
      exact ((cellsBelow_exact hi x _ (by omega)).2 (by unfold linCell; omega)).le
  · by_cases h : grid.length ≤ cellsBelow grid x + 1
    · left; unfold linCell; omega
    · right
      rw [← not_lt, cellsBelow_exact hi x _ (by omega)]
      unfold linCell; omega

theorem linRule_exact (fma : Bool) (grid : List K) (x : K) (f : Nat → K) :
    linRule fma grid x f = linPiece (fun i => grid.getD i 0) f (linCell grid x) x := by
  unfold linRule linPiece
  rw [lerp_exact]
  simp [cellPos]

end

end Interpn
