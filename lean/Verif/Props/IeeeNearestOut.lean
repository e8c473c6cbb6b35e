import Verif.Lemmas.IeeeNearestOut
import Verif.Lemmas.IeeeExamples

/-! C119: nearest-neighbor interpolation in IEEE 754 arithmetic at any observation, however far
outside the grid. -/

set_option autoImplicit false
set_option exponentiation.threshold 1100

namespace Interpn
open FloatOps Ieee

section
variable {f : Format} {N : Nat}

/-- Rectilinear grids, any observation. -/
theorem nearest_rectilinear_any (hu : f.unitRoundoff ≤ 1 / 100)
    (hη : f.underflow ≤ f.unitRoundoff / 100) (hΩ : 2 ≤ f.omega)
    (grids : Fin N → List (Ieee f)) (vals : List (Ieee f))
    (hG : (Axes.rectilinear fun k => (grids k).map val).Valid 2 (vals.map val))
    (g : (Fin N → Nat) → Ieee f) (hg : Samples (fun k => (grids k).length) vals g)
    (hgrid : ∀ k, ∀ a ∈ grids k, Finite a ∧ 2 * |val a| ≤ f.omega) (x : Fin N → Ieee f) :
    ∃ loc, nearestRectilinearAt grids vals x = .ok (g loc) ∧ ∀ k, loc k < (grids k).length ∧
      ((x k <=. (grids k).getD 0 zero) = true → loc k = 0) ∧
      (((grids k).getD ((grids k).length - 1) zero <=. x k) = true → loc k = (grids k).length - 1) ∧
      (Finite (x k) →
        ∃ c, InCell (grids k).length (fun i => ((grids k).map val).getD i 0) (val (x k)) c ∧
          NearestWithin (grids k).length (fun i => ((grids k).map val).getD i 0) (val (x k))
            (7 * f.unitRoundoff *
              (((grids k).map val).getD (c + 1) 0 - ((grids k).map val).getD c 0)) (loc k)) := by
  have hu0 := (rounds f).u_nonneg
  have hlen : ∀ k, 2 ≤ (grids k).length := fun k => by
    have := hG.big k; simpa [Axes.size] using this
  have hincr : ∀ k, Incr (grids k).length (fun i => ((grids k).map val).getD i 0) := fun k => by
    have : Incr ((grids k).map val).length (fun i => ((grids k).map val).getD i 0) :=
      fun i hi => hG.increasing k i hi
    rwa [List.length_map] at this
  have hnode : ∀ (k : Fin N) (i : Nat), i < (grids k).length →
      ((grids k).map val).getD i 0 = val ((grids k).getD i zero) := fun k i hi => by
    rw [List.getD_eq_getElem _ _ (by simpa using hi), List.getElem_map,
      List.getD_eq_getElem _ _ hi]
  have hmem : ∀ (k : Fin N) (i : Nat) (hi : i < (grids k).length), Finite ((grids k).getD i zero) :=
    fun k i hi => by
    rw [List.getD_eq_getElem _ _ hi]; exact (hgrid k _ (List.getElem_mem hi)).1
  have hvlen : vals.length = ∏ k, (grids k).length := by
    have := hG.len; simpa [Axes.size] using this
  have hslice : IsSlice vals := by
    have := hG.slice; rw [isSlice_iff] at this ⊢; simpa using this
  have hacc : RectilinearAccepted 2 grids vals := by
    refine ⟨hslice, hvlen, hlen, fun k => ?_⟩
    have h2 := hlen k
    have h01 := hincr k 0 (by omega)
    simp only [hnode k 0 (by omega), hnode k (0 + 1) (by omega)] at h01
    have := (exactCompare f _ _ (hmem k 0 (by omega)) (hmem k (0 + 1) (by omega))).2 h01
    match hgk : grids k with
    | [] => rw [hgk] at h2; simp at h2
    | [_] => rw [hgk] at h2; simp at h2
    | a :: b :: rest =>
      rw [hgk] at this
      exact ⟨a, b, rest, rfl, this⟩
  have hb : ∀ k, nearRectAxis (grids k) (x k) < (grids k).length := fun k =>
    nearRectAxis_bound (hlen k) _
  have hlow := fun k => nearRect_below (x := x k) (by linarith) (hlen k) (hgrid k) (hincr k)
  have hhigh := fun k => nearRect_above (x := x k) (by linarith) (hlen k) (hgrid k) (hincr k)
  refine ⟨fun k => nearRectAxis (grids k) (x k), ?_, fun k => ⟨hb k, hlow k, hhigh k, fun hf => ?_⟩⟩
  · rw [nearestRectilinearAt_eq grids vals hslice x, hacc.check le_rfl, Res.ok_bind]
    congr 1
    exact Option.some.inj ((samples_valAt zero _ _ hvlen _ hb).symm.trans (hg _ hb))
  have hcell := float_linCell (exactCompare f) hf (hlen k) (fun a ha => (hgrid k a ha).1) (hincr k)
  refine ⟨_, hcell, ?_⟩
  have hw : 0 ≤ 7 * f.unitRoundoff * (((grids k).map val).getD (linCell (grids k) (x k) + 1) 0 -
      ((grids k).map val).getD (linCell (grids k) (x k)) 0) := by
    have := hincr k _ hcell.1
    simp only at this
    have := (sub_pos.2 this).le
    positivity
  rcases le_total (val (x k)) (((grids k).map val).getD 0 0) with h1 | h1
  · refine ⟨hb k, fun j hj => ?_⟩
    dsimp only
    rw [hlow k ((exactCompareLe f _ _ hf (hmem k 0 (by have := hlen k; omega))).2
      (by rwa [hnode k 0 (by have := hlen k; omega)] at h1))]
    have := (hincr k).le (Nat.zero_le j) hj
    rw [abs_of_nonpos (by linarith), abs_of_nonpos (by linarith)]
    linarith
  rcases le_total (((grids k).map val).getD ((grids k).length - 1) 0) (val (x k)) with h2 | h2
  · refine ⟨hb k, fun j hj => ?_⟩
    dsimp only
    rw [hhigh k ((exactCompareLe f _ _ (hmem k _ (by have := hlen k; omega)) hf).2
      (by rwa [hnode k _ (by have := hlen k; omega)] at h2))]
    have := (hincr k).le (show j ≤ (grids k).length - 1 by omega) (by omega)
    rw [abs_of_nonneg (by linarith), abs_of_nonneg (by linarith)]
    linarith
  exact nearRect_within hu hη hΩ (hlen k) (hgrid k) (hincr k) hf ⟨h1, h2⟩

/-- Regular grids, observations up to `X` steps in size. -/
theorem nearest_regular_any (hη : f.underflow ≤ f.unitRoundoff / 100)
    (hΩ1 : 2 ^ 70 ≤ f.omega) (hp : f.p ≤ 53) (fma : Bool) (κ : ℚ) (hκ : 0 ≤ κ)
    (hN : 100 * ((1 + κ) * f.unitRoundoff) ≤ 1)
    (dims : Fin N → Nat) (starts steps : Fin N → Ieee f) (vals : List (Ieee f))
    (hG : (Axes.regular dims (fun k => val (starts k)) fun k => val (steps k)).Valid 2
      (vals.map val))
    (g : (Fin N → Nat) → Ieee f) (hg : Samples dims vals g)
    (hfin : ∀ k, Finite (starts k) ∧ Finite (steps k))
    (hnormal : ∀ k, f.underflow ≤ f.unitRoundoff * val (steps k))
    (hnodes : ∀ k, |val (starts k)| ≤ κ * val (steps k) ∧
      |val (starts k) + val (steps k) * ((dims k - 1 : Nat) : ℚ)| ≤ κ * val (steps k))
    (hlarge : ∀ k, 4 * (κ * val (steps k)) + 1 ≤ f.omega) (x : Fin N → Ieee f) (X : Fin N → ℚ)
    (hX : ∀ k, X k ≤ 2 ^ 61) (hx : ∀ k, Finite (x k) ∧ |val (x k)| ≤ X k * val (steps k))
    (hXlarge : ∀ k, 4 * (X k * val (steps k)) + 1 ≤ f.omega) :
    ∃ loc, nearestRegularAt fma dims starts steps vals x = .ok (g loc) ∧ ∀ k,
      (val (x k) ≤ val (starts k) → loc k = 0) ∧
      (val (starts k) + val (steps k) * ((dims k - 1 : Nat) : ℚ) ≤ val (x k) → loc k = dims k - 1) ∧
      NearestWithin (dims k) (fun i => val (starts k) + val (steps k) * (i : ℚ)) (val (x k))
        (7 * (1 + κ) * f.unitRoundoff * val (steps k)) (loc k) := by
  have hu0 := (rounds f).u_nonneg
  have hbig : ∀ k, 2 ≤ dims k := fun k => hG.big k
  have hsp : ∀ k, 0 < val (steps k) := fun k => hG.step_pos (by omega) k
  have hvlen : vals.length = ∏ k, dims k := by
    have := hG.len; simpa [Axes.size] using this
  have hslice : IsSlice vals := by
    have := hG.slice; rw [isSlice_iff] at this ⊢; simpa using this
  have hzero := (exactWhole f (n := 2 ^ f.p + 1) le_rfl).zero
  have hacc : RegularAccepted 2 dims steps vals := by
    refine ⟨hslice, hvlen, hbig, fun k => ?_⟩
    exact (exactCompare f _ _ hzero.1 (hfin k).2).2 (by rw [hzero.2]; exact hsp k)
  have hax : ∀ k, ∃ i, nearRegAxis fma (dims k) (starts k) (steps k) (x k) = some i ∧
      (val (x k) ≤ val (starts k) → i = 0) ∧
      (val (starts k) + val (steps k) * ((dims k - 1 : Nat) : ℚ) ≤ val (x k) → i = dims k - 1) ∧
      NearestWithin (dims k) (fun i => val (starts k) + val (steps k) * (i : ℚ)) (val (x k))
        (7 * (1 + κ) * f.unitRoundoff * val (steps k)) i := by
    intro k
    have hs := hsp k
    have hw : 0 ≤ 7 * (1 + κ) * f.unitRoundoff * val (steps k) := by positivity
    obtain ⟨hlow, hhigh⟩ := nearReg_beyond hη hΩ1 hp fma hκ (hX k) hN (hbig k) (hfin k).1 (hfin k).2 hs
      (hnormal k) (hnodes k) (hlarge k) (hx k).1 (hx k).2 (hXlarge k)
    have hd : ∀ j : Nat, j < dims k → val (steps k) * (j : ℚ) ≤ val (steps k) * ((dims k - 1 : Nat) : ℚ) :=
      fun j hj => by
      have : (j : ℚ) ≤ ((dims k - 1 : Nat) : ℚ) := by exact_mod_cast (by omega : j ≤ dims k - 1)
      gcongr
    have hspan : val (starts k) < val (starts k) + val (steps k) * ((dims k - 1 : Nat) : ℚ) := by
      have : (1 : ℚ) ≤ ((dims k - 1 : Nat) : ℚ) := by
        exact_mod_cast (by have := hbig k; omega : 1 ≤ dims k - 1)
      nlinarith
    rcases le_total (val (x k)) (val (starts k)) with h1 | h1
    · refine ⟨0, hlow h1, fun _ => rfl, fun h => absurd (hspan.trans_le (h.trans h1)) (lt_irrefl _),
        by have := hbig k; omega, fun j hj => ?_⟩
      have : 0 ≤ val (steps k) * (j : ℚ) := by positivity
      simp only [Nat.cast_zero, mul_zero, add_zero]
      rw [abs_of_nonpos (by linarith), abs_of_nonpos (by linarith)]
      linarith
    rcases le_total (val (starts k) + val (steps k) * ((dims k - 1 : Nat) : ℚ)) (val (x k)) with h2 | h2
    · refine ⟨dims k - 1, hhigh h2, fun h => absurd (hspan.trans_le (h2.trans h)) (lt_irrefl _),
        fun _ => rfl, by have := hbig k; omega, fun j hj => ?_⟩
      have := hd j hj
      dsimp only
      rw [abs_of_nonneg (by linarith), abs_of_nonneg (by linarith)]
      linarith
    obtain ⟨i, h3, h4⟩ := nearReg_within hη hΩ1 hp fma hκ hN (hbig k) (hfin k).1 (hfin k).2 hs (hnormal k)
      (hnodes k) (hlarge k) (hx k).1 ⟨by simpa using h1, h2⟩
    refine ⟨i, h3, fun h => ?_, fun h => ?_, h4⟩
    · exact Option.some.inj (h3.symm.trans (hlow h))
    · exact Option.some.inj (h3.symm.trans (hhigh h))
  choose loc hrun hloc using hax
  refine ⟨loc, ?_, hloc⟩
  rw [(nearestRegularAt_eq fma dims starts steps vals hslice x).1 _ hrun, hacc.check (by omega),
    Res.ok_bind]
  congr 1
  exact Option.some.inj ((samples_valAt zero _ _ hvlen _ fun k => (hloc k).2.2.1).symm.trans
    (hg _ fun k => (hloc k).2.2.1))

/-- C119, `f64`, rectilinear grids: at every observation the result is, bit for bit, the value stored at a
node `loc`. On an axis where the observation is at or below the first node (minus
infinity included) `loc` is the first index; where it is at or above the last node (infinity
included), the last; and no other node is closer by more than `7 · 2^-53` times the width of the cell
of the observation, if it is finite. (For NaN see C54.) -/
theorem C119_rectilinear_f64 (grids : Fin N → List F64) (vals : List F64)
    (hG : (Axes.rectilinear fun k => (grids k).map val).Valid 2 (vals.map val))
    (g : (Fin N → Nat) → F64) (hg : Samples (fun k => (grids k).length) vals g)
    (hgrid : ∀ k, ∀ a ∈ grids k, Finite a ∧ |val a| ≤ 2 ^ 1022)
    (x : Fin N → F64) :
    ∃ loc, nearestRectilinearAt grids vals x = .ok (g loc) ∧ ∀ k, loc k < (grids k).length ∧
      ((x k <=. (grids k).getD 0 zero) = true → loc k = 0) ∧
      (((grids k).getD ((grids k).length - 1) zero <=. x k) = true → loc k = (grids k).length - 1) ∧
      (Finite (x k) →
        ∃ c, InCell (grids k).length (fun i => ((grids k).map val).getD i 0) (val (x k)) c ∧
          NearestWithin (grids k).length (fun i => ((grids k).map val).getD i 0) (val (x k))
            (7 * (1 / 2 ^ 53) *
              (((grids k).map val).getD (c + 1) 0 - ((grids k).map val).getD c 0)) (loc k)) := by
  have hΩ := binary64_Ω
  have := nearest_rectilinear_any (f := Format.binary64) (by rw [binary64_u]; norm_num)
    (by rw [binary64_u, binary64_η]; norm_num) (le_trans (by norm_num) hΩ) grids vals hG g hg
    (fun k a ha => ⟨(hgrid k a ha).1, le_trans (by have := (hgrid k a ha).2; linarith) hΩ⟩) x
  rwa [binary64_u] at this

/-- C119, `f32`, rectilinear grids. -/
theorem C119_rectilinear_f32 (grids : Fin N → List F32) (vals : List F32)
    (hG : (Axes.rectilinear fun k => (grids k).map val).Valid 2 (vals.map val))
    (g : (Fin N → Nat) → F32) (hg : Samples (fun k => (grids k).length) vals g)
    (hgrid : ∀ k, ∀ a ∈ grids k, Finite a ∧ |val a| ≤ 2 ^ 126)
    (x : Fin N → F32) :
    ∃ loc, nearestRectilinearAt grids vals x = .ok (g loc) ∧ ∀ k, loc k < (grids k).length ∧
      ((x k <=. (grids k).getD 0 zero) = true → loc k = 0) ∧
      (((grids k).getD ((grids k).length - 1) zero <=. x k) = true → loc k = (grids k).length - 1) ∧
      (Finite (x k) →
        ∃ c, InCell (grids k).length (fun i => ((grids k).map val).getD i 0) (val (x k)) c ∧
          NearestWithin (grids k).length (fun i => ((grids k).map val).getD i 0) (val (x k))
            (7 * (1 / 2 ^ 24) *
              (((grids k).map val).getD (c + 1) 0 - ((grids k).map val).getD c 0)) (loc k)) := by
  have hΩ := binary32_Ω
  have := nearest_rectilinear_any (f := Format.binary32) (by rw [binary32_u]; norm_num)
    (by rw [binary32_u, binary32_η]; norm_num) (le_trans (by norm_num) hΩ) grids vals hG g hg
    (fun k a ha => ⟨(hgrid k a ha).1, le_trans (by have := (hgrid k a ha).2; linarith) hΩ⟩) x
  rwa [binary32_u] at this

/-- C119, `f64`, regular grids whose steps are normal numbers and whose nodes are at most `κ` steps in
size, observations up to `2^61` steps in size: the first node at or below the lower end, the last node
at or above the upper end, and no other node is closer by more than `7 (1 + κ) 2^-53` steps. -/
theorem C119_regular_f64 (fma : Bool) (κ : ℚ) (hκ : 0 ≤ κ) (hN : 100 * (1 + κ) ≤ 2 ^ 53)
    (dims : Fin N → Nat) (starts steps : Fin N → F64) (vals : List F64)
    (hG : (Axes.regular dims (fun k => val (starts k)) fun k => val (steps k)).Valid 2
      (vals.map val))
    (g : (Fin N → Nat) → F64) (hg : Samples dims vals g)
    (hfin : ∀ k, Finite (starts k) ∧ Finite (steps k)) (hnormal : ∀ k, 1 / 2 ^ 1022 ≤ val (steps k))
    (hnodes : ∀ k, |val (starts k)| ≤ κ * val (steps k) ∧
      |val (starts k) + val (steps k) * ((dims k - 1 : Nat) : ℚ)| ≤ κ * val (steps k))
    (hlarge : ∀ k, κ * val (steps k) ≤ 2 ^ 1020) (x : Fin N → F64)
    (hx : ∀ k, Finite (x k) ∧ |val (x k)| ≤ 2 ^ 61 * val (steps k) ∧ |val (x k)| ≤ 2 ^ 1020) :
    ∃ loc, nearestRegularAt fma dims starts steps vals x = .ok (g loc) ∧ ∀ k,
      (val (x k) ≤ val (starts k) → loc k = 0) ∧
      (val (starts k) + val (steps k) * ((dims k - 1 : Nat) : ℚ) ≤ val (x k) → loc k = dims k - 1) ∧
      NearestWithin (dims k) (fun i => val (starts k) + val (steps k) * (i : ℚ)) (val (x k))
        (7 * (1 + κ) * (1 / 2 ^ 53) * val (steps k)) (loc k) := by
  have hΩ := binary64_Ω
  have e1 : (1 : ℚ) / 2 ^ 1075 = 1 / 2 ^ 53 * (1 / 2 ^ 1022) := by norm_num
  have hs : ∀ k, 0 < val (steps k) := fun k => hG.step_pos (by omega) k
  have := nearest_regular_any (f := Format.binary64) (by rw [binary64_u, binary64_η]; norm_num)
    (le_trans (by norm_num) hΩ) le_rfl fma κ hκ (by rw [binary64_u]; linarith) dims starts steps vals
    hG g hg hfin
    (fun k => by
      rw [binary64_u, binary64_η]
      have := hnormal k
      rw [e1]; gcongr) hnodes
    (fun k => le_trans (by have := hlarge k; linarith) hΩ) x (fun k => |val (x k)| / val (steps k))
    (fun k => by rw [div_le_iff₀ (hs k)]; exact (hx k).2.1)
    (fun k => ⟨(hx k).1, by rw [div_mul_cancel₀ _ (hs k).ne']⟩)
    (fun k => by
      rw [div_mul_cancel₀ _ (hs k).ne']
      exact le_trans (by have := (hx k).2.2; linarith) hΩ)
  rwa [binary64_u] at this

/-- C119, `f32`, regular grids. -/
theorem C119_regular_f32 (fma : Bool) (κ : ℚ) (hκ : 0 ≤ κ) (hN : 100 * (1 + κ) ≤ 2 ^ 24)
    (dims : Fin N → Nat) (starts steps : Fin N → F32) (vals : List F32)
    (hG : (Axes.regular dims (fun k => val (starts k)) fun k => val (steps k)).Valid 2
      (vals.map val))
    (g : (Fin N → Nat) → F32) (hg : Samples dims vals g)
    (hfin : ∀ k, Finite (starts k) ∧ Finite (steps k)) (hnormal : ∀ k, 1 / 2 ^ 126 ≤ val (steps k))
    (hnodes : ∀ k, |val (starts k)| ≤ κ * val (steps k) ∧
      |val (starts k) + val (steps k) * ((dims k - 1 : Nat) : ℚ)| ≤ κ * val (steps k))
    (hlarge : ∀ k, κ * val (steps k) ≤ 2 ^ 124) (x : Fin N → F32)
    (hx : ∀ k, Finite (x k) ∧ |val (x k)| ≤ 2 ^ 61 * val (steps k) ∧ |val (x k)| ≤ 2 ^ 124) :
    ∃ loc, nearestRegularAt fma dims starts steps vals x = .ok (g loc) ∧ ∀ k,
      (val (x k) ≤ val (starts k) → loc k = 0) ∧
      (val (starts k) + val (steps k) * ((dims k - 1 : Nat) : ℚ) ≤ val (x k) → loc k = dims k - 1) ∧
      NearestWithin (dims k) (fun i => val (starts k) + val (steps k) * (i : ℚ)) (val (x k))
        (7 * (1 + κ) * (1 / 2 ^ 24) * val (steps k)) (loc k) := by
  have hΩ := binary32_Ω
  have e1 : (1 : ℚ) / 2 ^ 150 = 1 / 2 ^ 24 * (1 / 2 ^ 126) := by norm_num
  have hs : ∀ k, 0 < val (steps k) := fun k => hG.step_pos (by omega) k
  have := nearest_regular_any (f := Format.binary32) (by rw [binary32_u, binary32_η]; norm_num)
    (le_trans (by norm_num) hΩ) (by decide) fma κ hκ (by rw [binary32_u]; linarith) dims starts steps
    vals hG g hg hfin
    (fun k => by
      rw [binary32_u, binary32_η]
      have := hnormal k
      rw [e1]; gcongr) hnodes
    (fun k => le_trans (by have := hlarge k; linarith) hΩ) x (fun k => |val (x k)| / val (steps k))
    (fun k => by rw [div_le_iff₀ (hs k)]; exact (hx k).2.1)
    (fun k => ⟨(hx k).1, by rw [div_mul_cancel₀ _ (hs k).ne']⟩)
    (fun k => by
      rw [div_mul_cancel₀ _ (hs k).ne']
      exact le_trans (by have := (hx k).2.2; linarith) hΩ)
  rwa [binary32_u] at this

end
/-! ### Concrete cases -/

/-- Hypotheses of `C119_rectilinear_f64` are satisfied: at infinity on the first axis and far below the
second the result is the value stored at node (2, 0). -/
example : nearestRectilinearAt exGrids64 (.nan :: exVals64.tail) ![inf false, q64 (-1000)] =
    .ok (valAt .nan ![3, 2] (.nan :: exVals64.tail) ![2, 0]) := by
  obtain ⟨loc, h1, h2⟩ := C119_rectilinear_f64 exGrids64 (.nan :: exVals64.tail)
    (valid_of_check (by decide +kernel)) (valAt .nan ![3, 2] (.nan :: exVals64.tail))
    (samples_valAt _ _ _ (by decide)) (by decide +kernel) ![inf false, q64 (-1000)]
  have : loc = ![2, 0] := by
    funext k
    fin_cases k
    · exact (h2 0).2.2.1 (by decide +kernel)
    · exact (h2 1).2.1 (by decide +kernel)
  rw [h1, this]

/-- Hypotheses of `C119_rectilinear_f32` are satisfied: the largest float on the first axis, where the
computed position overflows if cells are narrow, and minus infinity on the second. -/
example : nearestRectilinearAt exGrids32 (.nan :: exVals32.tail)
      ![q32 ((2 ^ 24 - 1) * 2 ^ 104), inf true] =
    .ok (valAt .nan ![3, 2] (.nan :: exVals32.tail) ![2, 0]) := by
  obtain ⟨loc, h1, h2⟩ := C119_rectilinear_f32 exGrids32 (.nan :: exVals32.tail)
    (valid_of_check (by decide +kernel)) (valAt .nan ![3, 2] (.nan :: exVals32.tail))
    (samples_valAt _ _ _ (by decide)) (by decide +kernel) ![q32 ((2 ^ 24 - 1) * 2 ^ 104), inf true]
  have : loc = ![2, 0] := by
    funext k
    fin_cases k
    · exact (h2 0).2.2.1 (by decide +kernel)
    · exact (h2 1).2.1 (by decide +kernel)
  rw [h1, this]

/-- Hypotheses of `C119_regular_f64` are satisfied: nodes 0.1, 0.2, 0.3 on the first axis. -/
example : nearestRegularAt true ![3, 2] ![q64 (1 / 10), q64 1] ![q64 (1 / 10), q64 2]
    (.nan :: exVals64.tail) ![q64 1000000, q64 (-7)] =
    .ok (valAt .nan ![3, 2] (.nan :: exVals64.tail) ![2, 0]) := by
  obtain ⟨loc, h1, h2⟩ := C119_regular_f64 true 4 (by norm_num) (by norm_num) ![3, 2]
    ![q64 (1 / 10), q64 1] ![q64 (1 / 10), q64 2] (.nan :: exVals64.tail)
    (valid_of_check (by decide +kernel)) (valAt .nan ![3, 2] (.nan :: exVals64.tail))
    (samples_valAt _ _ _ (by decide)) (by decide +kernel) (by decide +kernel) (by decide +kernel)
    (by decide +kernel) ![q64 1000000, q64 (-7)] (by decide +kernel)
  have : loc = ![2, 0] := by
    funext k
    fin_cases k
    · exact (h2 0).2.1 (by decide +kernel)
    · exact (h2 1).1 (by decide +kernel)
  rw [h1, this]

/-- Hypotheses of `C119_regular_f32` are satisfied. -/
example : nearestRegularAt false ![3, 2] ![q32 (1 / 10), q32 1] ![q32 (1 / 10), q32 2]
    (.nan :: exVals32.tail) ![q32 1000000, q32 (-7)] =
    .ok (valAt .nan ![3, 2] (.nan :: exVals32.tail) ![2, 0]) := by
  obtain ⟨loc, h1, h2⟩ := C119_regular_f32 false 4 (by norm_num) (by norm_num) ![3, 2]
    ![q32 (1 / 10), q32 1] ![q32 (1 / 10), q32 2] (.nan :: exVals32.tail)
    (valid_of_check (by decide +kernel)) (valAt .nan ![3, 2] (.nan :: exVals32.tail))
    (samples_valAt _ _ _ (by decide)) (by decide +kernel) (by decide +kernel) (by decide +kernel)
    (by decide +kernel) ![q32 1000000, q32 (-7)] (by decide +kernel)
  have : loc = ![2, 0] := by
    funext k
    fin_cases k
    · exact (h2 0).2.1 (by decide +kernel)
    · exact (h2 1).1 (by decide +kernel)
  rw [h1, this]

end Interpn
