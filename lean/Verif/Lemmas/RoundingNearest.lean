import Verif.Lemmas.RoundingCubic
import Verif.Lemmas.RoundingRegular
import Verif.Lemmas.RoundingWeights

/-! Choice of the nearest node from a rounded relative position. -/

set_option autoImplicit false
set_option linter.unusedSectionVars false

namespace Interpn
open FloatOps

section
variable {K : Type} [Field K] [LinearOrder K] [IsStrictOrderedRing K] {n : Nat} {p : Nat → K}

/-- Choosing by a relative position `t'` with error at most `ε`. -/
theorem nearestWithin_choice {x t t' ε : K} {c : Nat} (hc : c + 1 < n) (hstep : p c < p (c + 1))
    (ht : t = (x - p c) / (p (c + 1) - p c)) (he : |t' - t| ≤ ε)
    (hlow : ∀ j < c, |x - p c| ≤ |x - p j|)
    (hup : ∀ j, c + 1 < j → j < n → |x - p (c + 1)| ≤ |x - p j|) {o : Nat}
    (ho : (t' ≤ 1 / 2 ∧ o = 0) ∨ (1 / 2 < t' ∧ o = 1)) :
    NearestWithin n p x (2 * ε * (p (c + 1) - p c)) (c + o) := by
  have hd : 0 < p (c + 1) - p c := sub_pos.2 hstep
  set d := p (c + 1) - p c with hdd
  have e0 : x - p c = t * d := by rw [ht]; field_simp
  have e1 : x - p (c + 1) = (t - 1) * d := by
    have : x - p (c + 1) = x - p c - d := by rw [hdd]; ring
    rw [this, e0]; ring
  have hε : 0 ≤ ε := (abs_nonneg _).trans he
  have he' := abs_le.1 he
  have a0 : |x - p c| = |t| * d := by rw [e0, abs_mul, abs_of_pos hd]
  have a1 : |x - p (c + 1)| = |t - 1| * d := by rw [e1, abs_mul, abs_of_pos hd]
  have hs : 0 ≤ 2 * ε * d := by positivity
  -- the chosen node against the other node of the cell
  have key : |x - p (c + o)| ≤ |x - p c| + 2 * ε * d ∧ |x - p (c + o)| ≤ |x - p (c + 1)| + 2 * ε * d := by
    rcases ho with ⟨h, rfl⟩ | ⟨h, rfl⟩
    · rw [Nat.add_zero, a0, a1]
      refine ⟨by linarith, ?_⟩
      have : |t| ≤ |t - 1| + 2 * ε := by
        rcases abs_cases t with ⟨h1, h2⟩ | ⟨h1, h2⟩ <;>
          rcases abs_cases (t - 1) with ⟨h3, h4⟩ | ⟨h3, h4⟩ <;> rw [h1, h3] <;> linarith
      calc |t| * d ≤ (|t - 1| + 2 * ε) * d := by gcongr
        _ = _ := by ring
    · rw [a0, a1]
      refine ⟨?_, by linarith⟩
      have : |t - 1| ≤ |t| + 2 * ε := by
        rcases abs_cases t with ⟨h1, h2⟩ | ⟨h1, h2⟩ <;>
          rcases abs_cases (t - 1) with ⟨h3, h4⟩ | ⟨h3, h4⟩ <;> rw [h1, h3] <;> linarith
      calc |t - 1| * d ≤ (|t| + 2 * ε) * d := by gcongr
        _ = _ := by ring
  refine ⟨by rcases ho with ⟨_, rfl⟩ | ⟨_, rfl⟩ <;> omega, fun j hj => ?_⟩
  rcases Nat.lt_trichotomy j c with h | h | h
  · linarith [hlow j h, key.1]
  · rw [h]; exact key.1
  · rcases Nat.eq_or_lt_of_le (show c + 1 ≤ j by omega) with h1 | h1
    · rw [← h1]; exact key.2
    · linarith [hup j h1 hj, key.2]

/-- A node that is nearest by a clear margin is the one chosen. -/
theorem NearestWithin.eq_of_margin {x s s' : K} {i i' : Nat} (h : NearestWithin n p x s i)
    (hs : s ≤ s') (hi' : i' < n) (hm : ∀ j < n, j ≠ i' → |x - p i'| + s' < |x - p j|) : i = i' := by
  by_contra hne
  have h1 := hm i h.1 hne
  have h2 := h.2 i' hi'
  linarith

end

section
variable {T K : Type} [FloatOps T] [Field K] [LinearOrder K] [IsStrictOrderedRing K]
  {val : T → K} {fin : T → Prop}

theorem half_exact (hex : ExactIfFloat val fin) (htwo : ∃ a, fin a ∧ val a = 2)
    (hhalf : ∃ a, fin a ∧ val a = 1 / 2) : fin (half : T) ∧ val (half : T) = 1 / 2 := by
  obtain ⟨a, ha, va⟩ := htwo
  obtain ⟨b, hb, vb⟩ := hhalf
  have h1 := hex.add one one a hex.one.1 hex.one.1 ha (by rw [hex.one.2, va]; norm_num)
  have h2 := hex.div one (one +. one) b hex.one.1 h1.1 hb (by rw [h1.2, va]; norm_num)
    (by rw [h1.2, hex.one.2, va, vb])
  exact ⟨h2.1, h2.2.trans vb⟩

theorem nearestOffset_float (hle : ExactCompareLe val fin) (hh : fin (half : T) ∧ val (half : T) = 1 / 2)
    {w : T} (hw : fin w) :
    (val w ≤ 1 / 2 ∧ nearestOffset w = 0) ∨ (1 / 2 < val w ∧ nearestOffset w = 1) := by
  unfold nearestOffset
  have := hle w half hw hh.1
  rw [hh.2] at this
  by_cases h : val w ≤ 1 / 2
  · exact .inl ⟨h, if_pos (this.2 h)⟩
  · exact .inr ⟨not_le.1 h, if_neg fun hb => h (this.1 hb)⟩

end

section
variable {T K : Type} [FloatOps T] [Field K] [LinearOrder K] [IsStrictOrderedRing K] [FloorRing K]
  {val : T → K} {fin : T → Prop}

/-- The cell found by comparing floats contains the observation. -/
theorem float_linCell (hcmp : ExactCompare val fin) {grid : List T} {x : T} (hx : fin x)
    (h2 : 2 ≤ grid.length) (hfin : ∀ a ∈ grid, fin a)
    (hi : Incr grid.length (fun i => (grid.map val).getD i 0)) :
    InCell grid.length (fun i => (grid.map val).getD i 0) (val x) (linCell grid x) := by
  have hnode : ∀ (i : Nat) (h : i < grid.length), (grid.map val).getD i 0 = val grid[i] :=
    fun i h => by rw [List.getD_eq_getElem _ _ (by simpa using h), List.getElem_map]
  have hlt : ∀ (i : Nat) (h : i < grid.length),
      (grid[i] <. x) = true ↔ (grid.map val).getD i 0 < val x := fun i h => by
    rw [hnode i h]; exact hcmp _ _ (hfin _ (List.getElem_mem h)) hx
  have hiff : ∀ i (_ : i < grid.length), (grid.map val).getD i 0 < val x ↔ i < cellsBelow grid x := by
    intro i h
    rw [← hlt i h]
    refine cellsBelow_iff (fun i j hij hj hb => ?_) i h
    rw [hlt j hj] at hb
    rw [hlt i (by omega)]
    exact lt_of_le_of_lt (hi.le hij hj) hb
  have hb := linCell_bound h2 x
  have hle := cellsBelow_le grid x
  refine ⟨by omega, ?_, ?_⟩
  · by_cases hc : cellsBelow grid x ≤ 1
    · left; unfold linCell; omega
    · right
      exact ((hiff _ (by omega)).2 (by unfold linCell; omega)).le
  · by_cases hc : grid.length ≤ cellsBelow grid x + 1
    · left; unfold linCell; omega
    · right
      refine not_lt.1 fun hlt => ?_
      have := (hiff _ (by omega)).1 hlt
      unfold linCell at this
      omega

end

end Interpn
