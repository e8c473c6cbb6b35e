import Verif.Lemmas.Dyadic
import Verif.Lemmas.RoundingNearest
import Verif.Lemmas.ExactCore
import Verif.Lemmas.Pieces

/-! The position of an observation in its cell is computed exactly on axes in fixed point. -/

set_option autoImplicit false

namespace Interpn
open FloatOps Ieee

variable {f : Format} {j : Int} {s : Nat}

theorem room_unit (hs : s ≤ f.p) : Room f (-(s : Int)) 1 := by
  have := f.two_le_p
  have := f.p_le_emax
  have h := room_pow (f := f) (e := -(s : Int)) (n := s) (by unfold Format.emin; omega) hs (by omega)
  rwa [show -(s : Int) + s = 0 by omega, zpow_zero] at h

/-- Dividing the distance from the lower node by a width `2^(j + c)`. -/
theorem position_dyadic {c : Nat} (hc : c ≤ s) (h1 : s ≤ f.p) {d w : Ieee f} (hd : Finite d)
    (hdm : Multiple j (val d)) (hw : Finite w) (hwv : val w = 2 ^ (j + c)) (h0 : 0 ≤ val d)
    (hle : val d ≤ val w) :
    Finite (d /. w) ∧ val (d /. w) = val d / val w ∧ Multiple (-(s : Int)) (val (d /. w)) ∧
      0 ≤ val (d /. w) ∧ val (d /. w) ≤ 1 := by
  have hpos : 0 < val w := by rw [hwv]; exact zpow_pos (by norm_num) _
  have hm : Multiple (-(s : Int)) (val d / val w) := by
    rw [hwv]
    exact hdm.div_pow.of_le (by omega)
  have h2 : 0 ≤ val d / val w := div_nonneg h0 hpos.le
  have h3 : val d / val w ≤ 1 := (div_le_one hpos).2 hle
  have := (room_unit h1).div hd hw hpos.ne' hm (by rw [abs_of_nonneg h2]; exact h3)
  rw [this.2]
  exact ⟨this.1, rfl, hm, h2, h3⟩

/-- Rectilinear axes. -/
theorem FixedGrid.position {grid : List (Ieee f)} (h : FixedGrid f j s grid) (h2 : 2 ≤ grid.length)
    (hi : Incr grid.length (fun i => (grid.map val).getD i 0)) {x : Ieee f} (hx : Finite x)
    (hxm : Multiple j (val x))
    (hin : InRange grid.length (fun i => (grid.map val).getD i 0) (val x)) :
    let c := linCell grid x
    let w := cellPos (fun i => grid.getD i zero) c x
    InCell grid.length (fun i => (grid.map val).getD i 0) (val x) c ∧ Finite w ∧
      val w = (val x - (grid.map val).getD c 0) /
        ((grid.map val).getD (c + 1) 0 - (grid.map val).getD c 0) ∧
      Multiple (-(s : Int)) (val w) ∧ 0 ≤ val w ∧ val w ≤ 1 := by
  intro c w
  have hcell := float_linCell (exactCompare f) hx h2 h.finite hi
  have hb := linCell_bound h2 x
  have hnode : ∀ i, i < grid.length → (grid.map val).getD i 0 = val (grid.getD i zero) :=
    fun i h => by
      rw [List.getD_eq_getElem _ _ (by simpa using h), List.getElem_map, List.getD_eq_getElem _ _ h]
  have hmem : ∀ i, i < grid.length → grid.getD i zero ∈ grid ∧ grid[i]? = some (grid.getD i zero) :=
    fun i h => by
      rw [List.getD_eq_getElem _ _ h]
      exact ⟨List.getElem_mem h, List.getElem?_eq_getElem h⟩
  obtain ⟨b0, b1⟩ := inRange_of_inCell hcell hin
  refine ⟨hcell, ?_⟩
  have e0 : (grid.map val).getD c 0 = val (grid.getD c zero) :=
    hnode _ (show linCell grid x < _ by omega)
  have e1 : (grid.map val).getD (c + 1) 0 = val (grid.getD (c + 1) zero) :=
    hnode _ (show linCell grid x + 1 < _ by omega)
  have m0 := hmem c (show linCell grid x < _ by omega)
  have m1 := hmem (c + 1) (show linCell grid x + 1 < _ by omega)
  change (grid.map val).getD c 0 ≤ val x at b0
  change val x ≤ (grid.map val).getD (c + 1) 0 at b1
  rw [e0] at b0
  rw [e1] at b1
  rw [e0, e1]
  obtain ⟨n, hn, hw⟩ := h.width c _ _ m0.2 m1.2
  have hroom : Room f j (2 ^ (j + s)) := room_pow h.fine h.digits h.range
  have hle : (2 : ℚ) ^ (j + (n : Int)) ≤ 2 ^ (j + (s : Int)) :=
    zpow_le_zpow_right₀ (by norm_num) (by omega)
  have hsx := hroom.sub hx (h.finite _ m0.1) (hxm.sub (h.node _ m0.1))
    (by rw [abs_of_nonneg (by linarith)]; linarith)
  have hsw := hroom.sub (h.finite _ m1.1) (h.finite _ m0.1) ((h.node _ m1.1).sub (h.node _ m0.1))
    (by rw [abs_of_nonneg (by linarith)]; linarith)
  have := position_dyadic hn h.digits hsx.1 (by rw [hsx.2]; exact hxm.sub (h.node _ m0.1)) hsw.1
    (by rw [hsw.2, hw]) (by rw [hsx.2]; linarith) (by rw [hsx.2, hsw.2]; linarith)
  rw [hsx.2, hsw.2] at this
  exact this

section
variable {dim : Nat} {start step : Ieee f}

theorem FixedRegular.step_pos (h : FixedRegular f j s dim start step) : 0 < val step := by
  rw [h.spacing]; exact zpow_pos (by norm_num) _

theorem FixedRegular.digits (h : FixedRegular f j s dim start step) (h2 : 2 ≤ dim) : s ≤ f.p := by
  have : 2 ^ s ≤ 2 ^ f.p := le_trans (Nat.le_mul_of_pos_left _ (by omega : 0 < dim - 1)) h.few
  exact (Nat.pow_le_pow_iff_right (by norm_num)).1 this

theorem FixedRegular.room (h : FixedRegular f j s dim start step) : Room f j (2 ^ (j + f.p)) :=
  room_pow h.fine le_rfl h.range

/-- The length of an axis. -/
theorem FixedRegular.span (h : FixedRegular f j s dim start step) :
    val step * ((dim - 1 : Nat) : ℚ) ≤ 2 ^ (j + (f.p : Int)) := by
  have hfew : ((dim - 1 : Nat) : ℚ) * 2 ^ s ≤ 2 ^ f.p := by exact_mod_cast h.few
  rw [h.spacing, zpow_add₀ (by norm_num), zpow_add₀ (by norm_num), zpow_natCast, zpow_natCast,
    mul_assoc]
  have hp : (0 : ℚ) ≤ 2 ^ j := zpow_nonneg (by norm_num) _
  refine mul_le_mul_of_nonneg_left ?_ hp
  linarith

/-- The position in units of steps is exact. -/
theorem FixedRegular.raw (h : FixedRegular f j s dim start step) (h2 : 2 ≤ dim)
    (hd : (dim : Int) ≤ isizeMax) {x : Ieee f} (hx : Finite x) (hxm : Multiple j (val x))
    (hin : InRange dim (fun i : Nat => val start + val step * (i : ℚ)) (val x)) :
    rawCell start step x = some ⌊(val x - val start) / val step⌋ ∧
      0 ≤ (val x - val start) / val step ∧
      (val x - val start) / val step ≤ ((dim - 1 : Nat) : ℚ) := by
  have hpos := h.step_pos
  have hsp := h.digits h2
  have hroom := h.room
  have hspan := h.span
  have hfew : ((dim - 1 : Nat) : ℚ) * 2 ^ s ≤ 2 ^ f.p := by exact_mod_cast h.few
  obtain ⟨hi0, hi1⟩ := hin
  simp only [Nat.cast_zero, mul_zero, add_zero] at hi0
  have hsx := hroom.sub hx h.finite.1 (hxm.sub h.origin)
    (by rw [abs_of_nonneg (by linarith)]; linarith)
  have hq0 : 0 ≤ (val x - val start) / val step := div_nonneg (by linarith) hpos.le
  have hq1 : (val x - val start) / val step ≤ ((dim - 1 : Nat) : ℚ) := by
    rw [div_le_iff₀ hpos]; linarith
  have hqm : Multiple (-(s : Int)) ((val x - val start) / val step) := by
    rw [h.spacing]
    exact (hxm.sub h.origin).div_pow.of_le (by omega)
  have hroom2 : Room f (-(s : Int)) (2 ^ (-(s : Int) + f.p)) := by
    have := f.two_le_p
    have := f.p_le_emax
    exact room_pow (by unfold Format.emin; omega) le_rfl (by omega)
  have hqb : ((dim - 1 : Nat) : ℚ) ≤ 2 ^ (-(s : Int) + f.p) := by
    rw [zpow_add₀ (by norm_num), zpow_neg, zpow_natCast, zpow_natCast, inv_mul_eq_div,
      le_div_iff₀ (by positivity)]
    exact hfew
  have hq := hroom2.div hsx.1 h.finite.2 hpos.ne' (by rwa [hsx.2])
    (by rw [hsx.2, abs_of_nonneg hq0]; linarith)
  rw [hsx.2] at hq
  refine ⟨?_, hq0, hq1⟩
  have hz0 : 0 ≤ ⌊(val x - val start) / val step⌋ := Int.floor_nonneg.2 hq0
  have hz1 : ⌊(val x - val start) / val step⌋ ≤ ((dim - 1 : Nat) : Int) := by
    rw [← Int.floor_natCast (R := ℚ) (dim - 1)]
    exact Int.floor_le_floor hq1
  have := (exactWhole f (n := 0) (Nat.zero_le _)).toIsize _ hq.1
    (by rw [hq.2]; simp only [isizeMin]; omega) (by rw [hq.2]; omega)
  rw [hq.2] at this
  exact this

/-- The coordinates of the nodes are exact. -/
theorem FixedRegular.node (h : FixedRegular f j s dim start step) (fma : Bool) {c : Nat}
    (hc : c < dim) : ∃ n : Ieee f, ofUsize c = some n ∧
      Finite (if fma then FloatOps.mulAdd step n start else start +. step *. n) ∧
      val (if fma then FloatOps.mulAdd step n start else start +. step *. n) =
        val start + val step * (c : ℚ) ∧
      Multiple j (val start + val step * (c : ℚ)) := by
  have hpos := h.step_pos
  have hroom := h.room
  have hspan := h.span
  have hdim : dim ≤ 2 ^ f.p + 1 := by
    have : (dim - 1) * 1 ≤ (dim - 1) * 2 ^ s := Nat.mul_le_mul_left _ Nat.one_le_two_pow
    have := h.few
    omega
  obtain ⟨n, hn, hnf, hnv⟩ := (exactWhole f hdim).ofUsize c hc
  refine ⟨n, hn, ?_⟩
  have hcd : (c : ℚ) ≤ ((dim - 1 : Nat) : ℚ) := by exact_mod_cast (by omega : c ≤ dim - 1)
  have hsc : val step * (c : ℚ) ≤ val step * ((dim - 1 : Nat) : ℚ) :=
    mul_le_mul_of_nonneg_left hcd hpos.le
  have hsc0 : 0 ≤ val step * (c : ℚ) := mul_nonneg hpos.le (Nat.cast_nonneg _)
  have hpm : Multiple j (val step * (c : ℚ)) := by
    rw [h.spacing]
    refine Multiple.of_le (e := j + s) ⟨c, ?_⟩ (by omega)
    push_cast; ring
  have hnm := h.origin.add hpm
  have hnb : |val start + val step * (c : ℚ)| ≤ 2 ^ (j + (f.p : Int)) := by
    have a0 := abs_le.1 h.size.1
    have a1 := abs_le.1 h.size.2
    rw [abs_le]
    constructor <;> linarith
  rw [← and_assoc]
  refine ⟨?_, hnm⟩
  cases fma with
  | true =>
    have e1 : val step * val n + val start = val start + val step * (c : ℚ) := by rw [hnv]; ring
    have := hroom.mulAdd h.finite.2 hnf h.finite.1 (by rwa [e1]) (by rwa [e1])
    rw [e1] at this
    exact this
  | false =>
    have h3 := hroom.mul h.finite.2 hnf (by rwa [hnv])
      (by rw [hnv, abs_of_nonneg hsc0]; linarith)
    have e1 : val start + val (step *. n) = val start + val step * (c : ℚ) := by rw [h3.2, hnv]
    have := hroom.add h.finite.1 h3.1 (by rwa [e1]) (by rwa [e1])
    rw [e1] at this
    exact this

/-- Regular axes. -/
theorem FixedRegular.position (h : FixedRegular f j s dim start step)
    (h2 : 2 ≤ dim) (hd : (dim : Int) ≤ isizeMax) (fma : Bool) {x : Ieee f} (hx : Finite x)
    (hxm : Multiple j (val x))
    (hin : InRange dim (fun i : Nat => val start + val step * (i : ℚ)) (val x)) :
    ∃ c w, linRegAxis fma dim start step x = some (c, w) ∧
      InCell dim (fun i : Nat => val start + val step * (i : ℚ)) (val x) c ∧ Finite w ∧
      val w = (val x - (val start + val step * (c : ℚ))) /
        ((val start + val step * ((c + 1 : Nat) : ℚ)) - (val start + val step * (c : ℚ))) ∧
      Multiple (-(s : Int)) (val w) ∧ 0 ≤ val w ∧ val w ≤ 1 := by
  have hpos := h.step_pos
  have hroom := h.room
  have hspan := h.span
  obtain ⟨hraw, -, -⟩ := h.raw h2 hd hx hxm hin
  have hcell := regular_inCell (x := val x) (start := val start) (step := val step) hpos h2
  set z := ⌊(val x - val start) / val step⌋ with hz
  set c := clampIdx z (dim - 2) with hc
  have hc2 : c + 2 ≤ dim := by have := clampIdx_le z (dim - 2); omega
  obtain ⟨n, hn, hnf, hnv, hnm⟩ := h.node fma (show c < dim by omega)
  obtain ⟨b0, b1⟩ := inRange_of_inCell hcell hin
  push_cast at b1
  set nd := if fma then FloatOps.mulAdd step n start else start +. step *. n with hnddef
  have hstepb : val step ≤ 2 ^ (j + (f.p : Int)) := by
    have : (1 : ℚ) ≤ ((dim - 1 : Nat) : ℚ) := by exact_mod_cast (by omega : 1 ≤ dim - 1)
    nlinarith
  have hxn := hroom.sub hx hnf (by rw [hnv]; exact hxm.sub hnm)
    (by rw [hnv, abs_of_nonneg (by linarith)]; linarith)
  have hp := position_dyadic (c := s) le_rfl (h.digits h2) hxn.1
    (by rw [hxn.2, hnv]; exact hxm.sub hnm) h.finite.2 h.spacing (by rw [hxn.2, hnv]; linarith)
    (by rw [hxn.2, hnv]; linarith)
  refine ⟨c, (x -. nd) /. step, ?_, hcell, hp.1, ?_, hp.2.2⟩
  · unfold linRegAxis
    rw [hraw]
    simp only [← hc]
    rw [hn]
  · rw [hp.2.1, hxn.2, hnv]
    congr 1
    push_cast
    ring

end

/-- The choice between the two nodes of the cell, if the position is exact. -/
theorem nearest_dyadic {n : Nat} {p : Nat → ℚ} (hi : Incr n p) {x : ℚ} {c : Nat}
    (hc : InCell n p x c) {w : Ieee f} (hw : Finite w)
    (hv : val w = (x - p c) / (p (c + 1) - p c)) : IsNearest n p x (c + nearestOffset w) := by
  let _ := exactOps ℚ
  have h1 := nearestOffset_exact hi hc
  rw [← hv] at h1
  have h2 : nearestOffset (val w) = nearestOffset w := by
    have h3 : nearestOffset (val w) = if val w ≤ 1 / 2 then 0 else 1 := by
      unfold nearestOffset half
      rw [exact_le]
      have : val w ≤ (one : ℚ) /. ((one : ℚ) +. one) ↔ val w ≤ 1 / 2 := by
        show val w ≤ (1 : ℚ) / (1 + 1) ↔ _
        norm_num
      simp only [decide_eq_true_iff, this]
    rw [h3]
    rcases nearestOffset_float (exactCompareLe f)
      (half_exact (exactIfFloat f) two_float half_float) hw with ⟨h4, h5⟩ | ⟨h4, h5⟩
    · rw [if_pos h4, h5]
    · rw [if_neg (not_le.2 h4), h5]
  rwa [h2] at h1

end Interpn
