import Verif.Lemmas.OneDim
import Verif.Lemmas.New
import Verif.Spec.Search
import Verif.Lemmas.EvalCubic
import Verif.Lemmas.RatOps
import Mathlib.Order.Defs.LinearOrder
import Mathlib.Data.Nat.Log

/-! C18: bisection on rectilinear grids. -/

set_option autoImplicit false

namespace Interpn
open FloatOps

variable {T : Type} [FloatOps T]

/-! #### Helpers on the common form of the search -/

theorem linSearch_lawfree (grid : List T) (v : T) (h2 : 2 ≤ grid.length) (hs : IsSlice grid) :
    SelectsCellLawFree grid v (linGetLocRectilinear grid.length grid v) := by
  intro hsort
  have hc := cellsBelow_iff hsort
  have hle := cellsBelow_le grid v
  refine ⟨min (cellsBelow grid v - 1) (grid.length - 2), by omega,
    linGetLocRectilinear_eq h2 ((isSlice_iff _).1 hs) hs v, fun h => ?_, fun h => ?_, fun h h' => ?_⟩
  · have := (hc 0 (by omega)).not.1 (by simp [h]); omega
  · have := (hc _ (by omega)).1 h; omega
  · have h1 := (hc 0 (by omega)).1 h
    have h3 := (hc (grid.length - 1) (by omega)).not.1 (by simp [h'])
    refine ⟨(hc _ (by omega)).2 (by omega), ?_⟩
    have := (hc (min (cellsBelow grid v - 1) (grid.length - 2) + 1) (by omega)).not.2 (by omega)
    simpa using this

section Ordered
variable [LinearOrder T] (hlt : ∀ a b : T, (a <. b) = decide (a < b))
include hlt

theorem below_closed {grid : List T} (hm : grid.Pairwise (· < ·)) (v : T) (i j : Nat)
    (hij : i ≤ j) (hj : j < grid.length) (h : (grid[j] <. v) = true) :
    (grid[i]'(by omega) <. v) = true := by
  rw [hlt, decide_eq_true_iff] at *
  rcases Nat.lt_or_ge i j with h1 | h1
  · exact lt_trans (List.pairwise_iff_getElem.1 hm i j _ hj h1) h
  · have : i = j := by omega
    subst this; exact h

theorem linSearch_cell (grid : List T) (v : T) (h2 : 2 ≤ grid.length) (hs : IsSlice grid)
    (hm : grid.Pairwise (· < ·)) :
    SelectsCell grid v (linGetLocRectilinear grid.length grid v) := by
  obtain ⟨i, hi, hr, h0, h1, hin⟩ := linSearch_lawfree grid v h2 hs (below_closed hlt hm v)
  simp only [hlt, decide_eq_true_iff, decide_eq_false_iff_not, not_lt] at h0 h1 hin
  refine ⟨i, hi, hr, h0, fun h => by have := h1 h; omega, fun ha hb => ⟨hin ha hb, ?_⟩⟩
  intro j hj hja hjb
  obtain ⟨h3, h4⟩ := hin ha hb
  have hp := List.pairwise_iff_getElem.1 hm
  rcases lt_trichotomy i j with h | h | h
  · exfalso
    rcases Nat.lt_or_ge (i + 1) j with h' | h'
    · exact absurd (lt_of_le_of_lt h4 (hp (i + 1) j _ _ h')) (not_lt.2 hja.le)
    · have : j = i + 1 := by omega
      subst this; exact absurd hja (not_lt.2 h4)
  · exact h.symm
  · exfalso
    rcases Nat.lt_or_ge (j + 1) i with h' | h'
    · exact absurd (lt_of_le_of_lt hjb (hp (j + 1) i _ _ h')) (not_lt.2 h3.le)
    · have : i = j + 1 := by omega
      subst this; exact absurd h3 (not_lt.2 hjb)

theorem cubSearch_footprint (grid : List T) (v : T) (h4 : 4 ≤ grid.length) (hs : IsSlice grid)
    (hm : grid.Pairwise (· < ·)) :
    SelectsFootprint grid v (cubGetLocRectilinear grid.length grid v) := by
  have hc := cellsBelow_iff (below_closed hlt hm v)
  simp only [hlt, decide_eq_true_iff] at hc
  have hle := cellsBelow_le grid v
  have hcell := linSearch_cell hlt grid v (by omega) hs hm
  rw [linGetLocRectilinear_eq (by omega) ((isSlice_iff _).1 hs) hs v] at hcell
  refine ⟨_, _, _, ?_, hcell, cubGetLocRectilinear_eq h4 ((isSlice_iff _).1 hs) hs v, by omega, by omega, by omega, ?_⟩
  · omega
  have e0 := hc 0 (by omega)
  have e1 := hc 1 (by omega)
  have e2 := hc (grid.length - 2) (by omega)
  have e3 := hc (grid.length - 1) (by omega)
  rw [← not_lt, ← not_lt, ← not_lt, e0, e1, e2, e3]
  unfold satRectilinear
  refine ⟨?_, ?_, ?_, ?_⟩
  all_goals
    split_ifs <;> simp only [false_iff, true_iff] <;> omega

/-- C18, the 1-D rectilinear grid. -/
theorem C18_one_dim (grid vals : List T) (v : T) (h2 : 2 ≤ grid.length) (hs : IsSlice grid)
    (hm : grid.Pairwise (· < ·)) :
    ∃ i ex, i + 1 < grid.length ∧
      RectilinearGrid1D.index ⟨grid, vals⟩ v = .ok (i, ex) ∧
      SelectsCell grid v (.ok i) ∧
      (ex = .outsideLow ↔ v < grid[0]) ∧ (ex = .outsideHigh ↔ grid[grid.length - 1] < v) := by
  have hb := linCell_bound h2 v
  have hp : grid[0] < grid[grid.length - 1] :=
    List.pairwise_iff_getElem.1 hm 0 (grid.length - 1) _ (by omega) (by omega)
  have hcell := linSearch_cell hlt grid v h2 hs hm
  rw [linGetLocRectilinear_eq h2 ((isSlice_iff _).1 hs) hs v] at hcell
  refine ⟨_, _, by omega, RectilinearGrid1D.index_ok h2 hs v, hcell, ?_, ?_⟩
  all_goals
    rw [List.getD_eq_getElem _ _ (by omega), List.getD_eq_getElem _ _ (by omega)]
    unfold extrapLH
    simp only [hlt, decide_eq_true_iff]
    split_ifs <;> simp_all
  exact (lt_trans ‹_› hp).le

/-! #### C18 on N-dimensional grids, strictly increasing -/

/-- C18, `MultilinearRectilinear`. -/
theorem C18_multilinear_rectilinear {N : Nat} {grids : Fin N → List T} {vals : List T}
    {s : MultilinearRectilinear T N} (h : MultilinearRectilinear.new grids vals = .ok s) (k : Fin N)
    (hs : IsSlice (grids k)) (hm : (grids k).Pairwise (· < ·)) (v : T) :
    SelectsCell (grids k) v (s.getLoc v k) := by
  obtain ⟨h2, he⟩ := MultilinearRectilinear.getLoc_of_new h k v
  rw [he]
  exact linSearch_cell hlt _ v h2 hs hm

/-- C18, `NearestRectilinear`. -/
theorem C18_nearest_rectilinear {N : Nat} {grids : Fin N → List T} {vals : List T}
    {s : NearestRectilinear T N} (h : NearestRectilinear.new grids vals = .ok s) (k : Fin N)
    (hs : IsSlice (grids k)) (hm : (grids k).Pairwise (· < ·)) (v : T) :
    SelectsCell (grids k) v (s.getLoc v k) := by
  obtain ⟨h2, he⟩ := NearestRectilinear.getLoc_of_new h k v
  rw [he]
  exact linSearch_cell hlt _ v h2 hs hm

/-- C18, `MultilinearRectilinearRecursive`. -/
theorem C18_multilinear_rectilinear_recursive {M : Nat} {grids : List (List T)} {vals : List T}
    {s : MultilinearRectilinearRecursive T M} (h : MultilinearRectilinearRecursive.new M grids vals = .ok s)
    (k : Nat) (hk : k < grids.length) (hs : IsSlice grids[k]) (hm : grids[k].Pairwise (· < ·)) (v : T) :
    SelectsCell grids[k] v (s.getLoc v k) := by
  obtain ⟨h2, he⟩ := MultilinearRectilinearRecursive.getLoc_of_new h hk v
  rw [he]
  exact linSearch_cell hlt _ v h2 hs hm

/-- C18, `MulticubicRectilinear`. -/
theorem C18_multicubic_rectilinear {N : Nat} {grids : Fin N → List T} {vals : List T} {lin : Bool}
    {s : MulticubicRectilinear T N} (h : MulticubicRectilinear.new grids vals lin = .ok s) (k : Fin N)
    (hs : IsSlice (grids k)) (hm : (grids k).Pairwise (· < ·)) (v : T) :
    SelectsFootprint (grids k) v (s.getLoc v k) := by
  obtain ⟨h2, he⟩ := MulticubicRectilinear.getLoc_of_new h k v
  rw [he]
  exact cubSearch_footprint hlt _ v h2 hs hm

/-- C18, `MulticubicRectilinearRecursive`. -/
theorem C18_multicubic_rectilinear_recursive {M : Nat} {grids : List (List T)} {vals : List T} {lin : Bool}
    {s : MulticubicRectilinearRecursive T M} (h : MulticubicRectilinearRecursive.new M grids vals lin = .ok s)
    (k : Nat) (hk : k < grids.length) (hs : IsSlice grids[k]) (hm : grids[k].Pairwise (· < ·)) (v : T) :
    SelectsFootprint grids[k] v (s.getLoc v k) := by
  obtain ⟨h2, he⟩ := MulticubicRectilinearRecursive.getLoc_of_new h hk v
  rw [he]
  exact cubSearch_footprint hlt _ v h2 hs hm

end Ordered

omit [FloatOps T] in
/-- Number of comparisons made by the bisection: `⌈log₂ n⌉ + 1`, for any grid and predicate. -/
theorem C18_comparisons (grid : List T) (pred : T → Bool) (h : grid ≠ []) :
    (partitionPointCounted grid pred).2 = Nat.clog 2 grid.length + 1 ∧
    (partitionPointCounted grid pred).1 = partitionPoint grid pred :=
  ⟨partitionPoint_calls grid pred h, rfl⟩

/-! #### C18 on N-dimensional grids, any grid and any arithmetic -/

/-- `MultilinearRectilinear` on any grid (unsorted, with NaN, …): the selected cell is legal, and
it is the right one as soon as "below `v`" is downward closed along the grid (this includes IEEE
floats with a sorted grid and any `v`, also NaN). -/
theorem C18_multilinear_rectilinear_any_grid {N : Nat} {grids : Fin N → List T} {vals : List T}
    {s : MultilinearRectilinear T N} (h : MultilinearRectilinear.new grids vals = .ok s) (k : Fin N)
    (hs : IsSlice (grids k)) (v : T) :
    (∃ i, s.getLoc v k = .ok i ∧ i + 2 ≤ (grids k).length) ∧
    SelectsCellLawFree (grids k) v (s.getLoc v k) := by
  obtain ⟨h2, he⟩ := MultilinearRectilinear.getLoc_of_new h k v
  rw [he]
  exact ⟨⟨_, linGetLocRectilinear_eq h2 ((isSlice_iff _).1 hs) hs v, by omega⟩, linSearch_lawfree _ v h2 hs⟩

/-- `NearestRectilinear` on any grid (unsorted, with NaN, …): the selected cell is legal, and
it is the right one as soon as "below `v`" is downward closed along the grid (this includes IEEE
floats with a sorted grid and any `v`, also NaN). -/
theorem C18_nearest_rectilinear_any_grid {N : Nat} {grids : Fin N → List T} {vals : List T}
    {s : NearestRectilinear T N} (h : NearestRectilinear.new grids vals = .ok s) (k : Fin N)
    (hs : IsSlice (grids k)) (v : T) :
    (∃ i, s.getLoc v k = .ok i ∧ i + 2 ≤ (grids k).length) ∧
    SelectsCellLawFree (grids k) v (s.getLoc v k) := by
  obtain ⟨h2, he⟩ := NearestRectilinear.getLoc_of_new h k v
  rw [he]
  exact ⟨⟨_, linGetLocRectilinear_eq h2 ((isSlice_iff _).1 hs) hs v, by omega⟩, linSearch_lawfree _ v h2 hs⟩

/-- `MultilinearRectilinearRecursive` on any grid (unsorted, with NaN, …): the selected cell is legal, and
it is the right one as soon as "below `v`" is downward closed along the grid (this includes IEEE
floats with a sorted grid and any `v`, also NaN). -/
theorem C18_multilinear_rectilinear_recursive_any_grid {M : Nat} {grids : List (List T)} {vals : List T}
    {s : MultilinearRectilinearRecursive T M} (h : MultilinearRectilinearRecursive.new M grids vals = .ok s)
    (k : Nat) (hk : k < grids.length) (hs : IsSlice grids[k]) (v : T) :
    (∃ i, s.getLoc v k = .ok i ∧ i + 2 ≤ grids[k].length) ∧
    SelectsCellLawFree grids[k] v (s.getLoc v k) := by
  obtain ⟨h2, he⟩ := MultilinearRectilinearRecursive.getLoc_of_new h hk v
  rw [he]
  exact ⟨⟨_, linGetLocRectilinear_eq h2 ((isSlice_iff _).1 hs) hs v, by omega⟩, linSearch_lawfree _ v h2 hs⟩

/-- `MulticubicRectilinear` on any grid (unsorted, with NaN, …): the selected footprint is
legal. -/
theorem C18_multicubic_rectilinear_any_grid {N : Nat} {grids : Fin N → List T} {vals : List T} {lin : Bool}
    {s : MulticubicRectilinear T N} (h : MulticubicRectilinear.new grids vals lin = .ok s) (k : Fin N)
    (hs : IsSlice (grids k)) (v : T) :
    ∃ o sat, s.getLoc v k = .ok (o, sat) ∧ o + 4 ≤ (grids k).length := by
  obtain ⟨h2, he⟩ := MulticubicRectilinear.getLoc_of_new h k v
  rw [he]
  exact ⟨_, _, cubGetLocRectilinear_eq h2 ((isSlice_iff _).1 hs) hs v, by omega⟩

/-- `MulticubicRectilinearRecursive` on any grid (unsorted, with NaN, …): the selected footprint is
legal. -/
theorem C18_multicubic_rectilinear_recursive_any_grid {M : Nat} {grids : List (List T)} {vals : List T} {lin : Bool}
    {s : MulticubicRectilinearRecursive T M} (h : MulticubicRectilinearRecursive.new M grids vals lin = .ok s)
    (k : Nat) (hk : k < grids.length) (hs : IsSlice grids[k]) (v : T) :
    ∃ o sat, s.getLoc v k = .ok (o, sat) ∧ o + 4 ≤ grids[k].length := by
  obtain ⟨h2, he⟩ := MulticubicRectilinearRecursive.getLoc_of_new h hk v
  rw [he]
  exact ⟨_, _, cubGetLocRectilinear_eq h2 ((isSlice_iff _).1 hs) hs v, by omega⟩

section Examples
attribute [local instance] ratOps

/-- Grid 0, 1, 3, 4, 10: 3 is in the cell 1..3 (the upper node belongs to the cell); 11 in the
last cell; 0 in the first. All five methods accept the grid. -/
example : ((∀ a b : ℚ, (a <. b) = decide (a < b)) ∧ [0, 1, 3, 4, (10 : ℚ)].Pairwise (· < ·)) ∧
    (do let s ← MultilinearRectilinear.new (N := 1) ![[0, 1, 3, 4, (10 : ℚ)]] [1, 2, 3, 4, 5]
        return (← s.getLoc 3 0, ← s.getLoc 11 0, ← s.getLoc 0 0)) = .ok (1, 3, 0) ∧
    (do let s ← NearestRectilinear.new (N := 1) ![[0, 1, 3, 4, (10 : ℚ)]] [1, 2, 3, 4, 5]
        return (← s.getLoc 3 0, ← s.getLoc 11 0, ← s.getLoc 0 0)) = .ok (1, 3, 0) ∧
    (do let s ← MultilinearRectilinearRecursive.new 3 [[0, 1, 3, 4, (10 : ℚ)]] [1, 2, 3, 4, 5]
        return (← s.getLoc 3 0, ← s.getLoc 11 0, ← s.getLoc 0 0)) = .ok (1, 3, 0) ∧
    (do let s ← MulticubicRectilinear.new (N := 1) ![[0, 1, 3, 4, (10 : ℚ)]] [1, 2, 3, 4, 5] true
        return (← s.getLoc (7/2) 0, ← s.getLoc 11 0)) = .ok ((1, .none), (1, .outsideHigh)) ∧
    (do let s ← MulticubicRectilinearRecursive.new 3 [[0, 1, 3, 4, (10 : ℚ)]] [1, 2, 3, 4, 5] true
        return (← s.getLoc (7/2) 0, ← s.getLoc 11 0)) = .ok ((1, .none), (1, .outsideHigh)) ∧
    (partitionPointCounted [0, 1, 3, 4, (10 : ℚ)] (fun y => y <. (3 : ℚ))).2 = 4 := by
  refine ⟨⟨fun _ _ => rfl, by decide +kernel⟩, by decide +kernel⟩

end Examples

end Interpn
