import Verif.Spec.Crop
import Verif.Lemmas.Api
import Verif.Lemmas.Accept
import Verif.Lemmas.OneDim
import Verif.Lemmas.Symmetry
import Verif.Lemmas.IeeeMono

/-! Keeping a part of an axis: the same nodes and values are selected (C120). -/

set_option autoImplicit false
set_option linter.unusedSectionVars false

namespace Interpn
open FloatOps

section
variable {T : Type} [FloatOps T] {grid : List T} {a m r : Nat} {v : T}

theorem cropAxis_length (h : a + m ≤ grid.length) : (cropAxis a m grid).length = m := by
  unfold cropAxis; rw [List.length_take, List.length_drop]; omega

theorem cropAxis_get? {i : Nat} (hi : i < m) : (cropAxis a m grid)[i]? = grid[a + i]? := by
  unfold cropAxis; rw [List.getElem?_take_of_lt hi, List.getElem?_drop]

theorem cropAxis_getD {i : Nat} (hi : i < m) (d : T) :
    (cropAxis a m grid).getD i d = grid.getD (a + i) d := by
  rw [List.getD_eq_getElem?_getD, List.getD_eq_getElem?_getD, cropAxis_get? hi]

/-- "Below `v`" is a prefix of the axis. -/
def BelowPrefix (grid : List T) (v : T) : Prop :=
  ∀ (i j : Nat) (_ : i ≤ j) (hj : j < grid.length), (grid[j] <. v) = true → (grid[i] <. v) = true

theorem BelowPrefix.crop (h : BelowPrefix grid v) (hl : a + m ≤ grid.length) :
    BelowPrefix (cropAxis a m grid) v := by
  intro i j hij hj
  rw [cropAxis_length hl] at hj
  have e : ∀ i (hi : i < m), (cropAxis a m grid)[i]'(by rw [cropAxis_length hl]; exact hi) =
      grid[a + i]'(by omega) := fun i hi => by
    have := cropAxis_get? (grid := grid) (a := a) hi
    rw [List.getElem?_eq_getElem (by rw [cropAxis_length hl]; exact hi),
      List.getElem?_eq_getElem (by omega)] at this
    exact Option.some.inj this
  rw [e i (by omega), e j hj]
  exact h _ _ (by omega) (by omega)

/-- The number of nodes below the observation decreases by the number of nodes cut off. -/
theorem cellsBelow_crop (h : BelowPrefix grid v) (hm : 0 < m) (hk : KeptBy r grid a m v)
    (hr : 2 * r < m) :
    cellsBelow grid v = a + cellsBelow (cropAxis a m grid) v ∧
      (a = 0 ∨ r + 1 ≤ cellsBelow (cropAxis a m grid) v) ∧
      (a + m = grid.length ∨ cellsBelow (cropAxis a m grid) v + r + 1 ≤ m) := by
  obtain ⟨hl, hlo, hhi⟩ := hk
  have h1 := fun i hi => cellsBelow_iff h i hi
  have h2 := fun i hi => cellsBelow_iff (h.crop hl) i hi
  have hle := cellsBelow_le grid v
  have hle' := cellsBelow_le (cropAxis a m grid) v
  rw [cropAxis_length hl] at hle'
  have e : ∀ i (hi : i < m), i < cellsBelow (cropAxis a m grid) v ↔ a + i < cellsBelow grid v := by
    intro i hi
    rw [← h2 i (by rw [cropAxis_length hl]; exact hi), ← h1 (a + i) (by omega)]
    have := cropAxis_get? (grid := grid) (a := a) hi
    rw [List.getElem?_eq_getElem (by rw [cropAxis_length hl]; exact hi),
      List.getElem?_eq_getElem (by omega)] at this
    rw [Option.some.inj this]
  have hlo' : a = 0 ∨ a + r < cellsBelow grid v := hlo.imp_right fun ⟨y, hy, hlt⟩ => by
    obtain ⟨hi, rfl⟩ := List.getElem?_eq_some_iff.1 hy
    exact (h1 _ hi).1 hlt
  have hhi' : a + m = grid.length ∨ cellsBelow grid v ≤ a + m - 1 - r := hhi.imp_right fun ⟨y, hy, hlt⟩ => by
    obtain ⟨hi, rfl⟩ := List.getElem?_eq_some_iff.1 hy
    by_contra hc
    have := (h1 _ hi).2 (by omega)
    rw [hlt] at this
    cases this
  generalize cellsBelow grid v = c at *
  generalize cellsBelow (cropAxis a m grid) v = c' at *
  have hmain : c = a + c' := by
    have ha : a ≤ c := by omega
    have hb : c ≤ a + m := by omega
    by_cases h0 : c' = 0
    · have := e 0 hm; omega
    · have e1 := (e (c' - 1) (by omega)).1 (by omega)
      by_cases h3 : c' = m
      · omega
      · have e2 := e c' (by omega); omega
  exact ⟨hmain, by omega, by omega⟩

theorem linCell_crop (h : BelowPrefix grid v) (hm : 2 ≤ m) (hk : KeptBy 0 grid a m v) :
    linCell grid v = a + linCell (cropAxis a m grid) v := by
  obtain ⟨h1, h2, h3⟩ := cellsBelow_crop h (by omega) hk (by omega)
  have := hk.1
  unfold linCell
  rw [cropAxis_length hk.1]
  omega

theorem linRule_crop (fma : Bool) (h : BelowPrefix grid v) (hm : 2 ≤ m) (hk : KeptBy 0 grid a m v)
    (g : Nat → T) :
    linRule fma (cropAxis a m grid) v (fun i => g (a + i)) = linRule fma grid v g := by
  have hb := linCell_bound (grid := cropAxis a m grid) (by rw [cropAxis_length hk.1]; exact hm) v
  rw [cropAxis_length hk.1] at hb
  unfold linRule cellPos
  dsimp only
  rw [linCell_crop h hm hk, cropAxis_getD (by omega), cropAxis_getD (by omega)]
  simp only [Nat.add_assoc]

theorem nearRectAxis_crop (h : BelowPrefix grid v) (hm : 2 ≤ m) (hk : KeptBy 0 grid a m v) :
    nearRectAxis grid v = a + nearRectAxis (cropAxis a m grid) v := by
  have hb := linCell_bound (grid := cropAxis a m grid) (by rw [cropAxis_length hk.1]; exact hm) v
  rw [cropAxis_length hk.1] at hb
  unfold nearRectAxis cellPos
  dsimp only
  rw [linCell_crop h hm hk, cropAxis_getD (by omega), cropAxis_getD (by omega)]
  simp only [Nat.add_assoc]

theorem cubRectRule_crop (fma fk fl lin : Bool) (h : BelowPrefix grid v) (hm : 4 ≤ m)
    (hk : KeptBy 1 grid a m v) (g : Nat → T) :
    cubRectRule fma fk fl lin (cropAxis a m grid) v (fun i => g (a + i)) =
      cubRectRule fma fk fl lin grid v g := by
  obtain ⟨h1, h2, h3⟩ := cellsBelow_crop h (by omega) hk (by omega)
  have hl := hk.1
  have hc : cubCell grid v = a + cubCell (cropAxis a m grid) v := by
    unfold cubCell; rw [cropAxis_length hl]; omega
  have hs : satRectilinear grid.length (cellsBelow grid v) =
      satRectilinear (cropAxis a m grid).length (cellsBelow (cropAxis a m grid) v) := by
    unfold satRectilinear
    rw [cropAxis_length hl, h1]
    have hle := cellsBelow_le (cropAxis a m grid) v
    rw [cropAxis_length hl] at hle
    generalize cellsBelow (cropAxis a m grid) v = c' at *
    rcases Nat.eq_zero_or_pos a with rfl | ha
    · rw [Nat.zero_add]
      rcases h3 with h3 | h3
      · rw [← h3, Nat.zero_add]
      · split_ifs <;> first | rfl | omega
    · split_ifs <;> first | rfl | omega
  have hb := cubCell_bound (grid := cropAxis a m grid) (by rw [cropAxis_length hl]; exact hm) v
  rw [cropAxis_length hl] at hb
  unfold cubRectRule
  rw [hs, hc]
  have hg : (fun p : Fin 4 => (cropAxis a m grid).getD (cubCell (cropAxis a m grid) v + p.val) zero) =
      fun p : Fin 4 => grid.getD (a + cubCell (cropAxis a m grid) v + p.val) zero := by
    funext p
    rw [cropAxis_getD (by omega), Nat.add_assoc]
  rw [hg]
  simp only [Nat.add_assoc]

end

section
variable {T : Type}

/-- Shift of all indices, in any arithmetic. -/
theorem axisByAxis_shifted {N : Nat} (b : Fin N → Nat) (op op' : Fin N → (Nat → T) → T)
    (g : (Fin N → Nat) → T) (h : ∀ k g, op' k (fun i => g (b k + i)) = op k g) :
    axisByAxis op' (fun loc => g fun k => b k + loc k) = axisByAxis op g := by
  rw [← axisByAxis_reindex op' g fun k i => b k + i]
  exact axisByAxis_congr_op _ _ _ h

end

namespace Ieee
variable {f : Format}

theorem lt_trans {a b c : Ieee f} (h1 : (a <. b) = true) (h2 : (b <. c) = true) :
    (a <. c) = true := by
  change lt a b = true at h1
  change lt b c = true at h2
  change lt a c = true
  cases a <;> cases b <;> cases c <;> simp_all [lt]
  exact _root_.lt_trans h1 h2

theorem lt_of_le_of_lt {a b c : Ieee f} (h1 : (a <=. b) = true) (h2 : (b <. c) = true) :
    (a <. c) = true := by
  change le a b = true at h1
  change lt b c = true at h2
  change lt a c = true
  cases a <;> cases b <;> cases c <;> simp_all [lt, le]
  exact _root_.lt_of_le_of_lt h1 h2

theorem lt_asymm {a b : Ieee f} (h1 : (a <. b) = true) : (b <. a) = false := by
  change lt a b = true at h1
  change lt b a = false
  cases a <;> cases b <;> simp_all [lt]
  exact h1.le

theorem belowPrefix {grid : List (Ieee f)} (h : SortedAxis grid) (v : Ieee f) :
    BelowPrefix grid v := by
  intro i j hij hj hlt
  rcases Nat.eq_or_lt_of_le hij with rfl | hlt'
  · exact hlt
  · exact lt_of_le_of_lt (List.pairwise_iff_getElem.1 h i j (by omega) hj hlt') hlt

end Ieee

end Interpn
