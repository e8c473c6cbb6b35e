import Verif.Lemmas.RoundingNearest
import Verif.Lemmas.Accept
import Verif.Lemmas.Api
import Verif.Lemmas.RoundNum
import Verif.Lemmas.ExampleGrids

/-! C77: nearest-neighbor interpolation in rounded arithmetic selects a node that is nearest up to
rounding error. -/

set_option autoImplicit false
set_option linter.unusedSectionVars false

namespace Interpn
open FloatOps

section
variable {T K : Type} [FloatOps T] [Field K] [LinearOrder K] [IsStrictOrderedRing K] [FloorRing K]
  {val : T → K} {fin : T → Prop} {u η Ω : K} {N : Nat}

/-- The node chosen on a rectilinear axis. -/
theorem rounds_nearRect (h : Rounds val fin u η Ω) (hcmp : ExactCompare val fin)
    (hle : ExactCompareLe val fin) (hh : fin (half : T) ∧ val (half : T) = 1 / 2) (hu1 : u < 1)
    {grid : List T} {x : T} (h2 : 2 ≤ grid.length) (hgrid : ∀ a ∈ grid, fin a ∧ 2 * |val a| ≤ Ω)
    (hincr : Incr grid.length (fun i => (grid.map val).getD i 0))
    (hx : fin x ∧ 2 * |val x| ≤ Ω) {lam : K} (hlam : 0 ≤ lam)
    (hnear : NearRange grid.length (fun i => (grid.map val).getD i 0) lam (val x))
    (hΩ : (1 + lam) * (1 + weightCost u) ≤ Ω) :
    InCell grid.length (fun i => (grid.map val).getD i 0) (val x) (linCell grid x) ∧
    NearestWithin grid.length (fun i => (grid.map val).getD i 0) (val x)
      (2 * (weightCost u * (1 + lam) + η) *
        ((grid.map val).getD (linCell grid x + 1) 0 - (grid.map val).getD (linCell grid x) 0))
      (nearRectAxis grid x) := by
  have hτ := weightCost_nonneg h.u_nonneg hu1
  have hnode : ∀ i : Nat, i < grid.length → (grid.map val).getD i 0 = val (grid.getD i zero) :=
    fun i hi => by
    rw [List.getD_eq_getElem _ _ (by simpa using hi), List.getElem_map,
      List.getD_eq_getElem _ _ hi]
  have hmem : ∀ i : Nat, i < grid.length → fin (grid.getD i zero) ∧ 2 * |val (grid.getD i zero)| ≤ Ω :=
    fun i hi => by
    rw [List.getD_eq_getElem _ _ hi]; exact hgrid _ (List.getElem_mem hi)
  have hcell := float_linCell hcmp hx.1 h2 (fun a ha => (hgrid a ha).1) hincr
  refine ⟨hcell, ?_⟩
  have hb := linCell_bound h2 x
  have m1 := hmem (linCell grid x) (by omega)
  have m2 := hmem (linCell grid x + 1) (by omega)
  have h3 := hincr (linCell grid x) (by omega)
  have h4 := (abs_weight_nearRange hlam (weight_nearRange hincr hlam hcell hnear)).2
  have h3' := h3
  have h4' := h4
  simp only [hnode _ (show linCell grid x < _ by omega),
    hnode _ (show linCell grid x + 1 < _ by omega)] at h3' h4'
  have hw := rounds_weight h hu1 hx.1 m1.1 m2.1 h3'
    (by have := abs_sub (val x) (val (grid.getD (linCell grid x) zero))
        have := hx.2; linarith [m1.2])
    (by have := abs_sub (val (grid.getD (linCell grid x + 1) zero))
          (val (grid.getD (linCell grid x) zero))
        linarith [m1.2, m2.2])
    h4' hΩ
  have hw2 : |val (cellPos (fun i => grid.getD i zero) (linCell grid x) x) -
      (val x - (grid.map val).getD (linCell grid x) 0) /
        ((grid.map val).getD (linCell grid x + 1) 0 - (grid.map val).getD (linCell grid x) 0)| ≤
      weightCost u * (1 + lam) + η := by
    rw [hnode _ (show linCell grid x < _ by omega), hnode _ (show linCell grid x + 1 < _ by omega)]
    refine hw.2.trans ?_
    gcongr
  refine nearestWithin_choice hcell.1 h3 rfl hw2 (fun j hj => ?_) (fun j hj hjn => ?_)
    (nearestOffset_float hle hh hw.1)
  · have hxc := hcell.2.1.resolve_left (by omega)
    have := hincr.lt hj (by omega)
    simp only at this hxc
    rw [abs_of_nonneg (by linarith), abs_of_nonneg (by linarith)]
    linarith
  · have hxc := hcell.2.2.resolve_left (by omega)
    have := hincr.lt hj hjn
    simp only at this hxc
    rw [abs_of_nonpos (by linarith), abs_of_nonpos (by linarith)]
    linarith

/-- The node chosen on a regular axis. -/
theorem rounds_nearReg (h : Rounds val fin u η Ω) (hle : ExactCompareLe val fin)
    (hh : fin (half : T) ∧ val (half : T) = 1 / 2) {n : Nat} (hwhole : ExactWhole val fin n)
    (fma : Bool) {dim : Nat} (hdn : dim ≤ n) (h2 : 2 ≤ dim) {s st x : T} (hs : fin s) (hst : fin st)
    (hx : fin x) (hp : 0 < val st) {A lam : K} (hlam : 0 ≤ lam)
    (hA : |val s| ≤ A ∧ |val s + val st * ((dim - 1 : Nat) : K)| ≤ A)
    (hnear : NearRange dim (fun i : Nat => val s + val st * (i : K)) lam (val x))
    (hbounds : AxisInBounds u η Ω A lam (val st) (val x) dim)
    (hpos : positionError u η (((dim - 1 : Nat) : K) + lam) ≤ 1 / 2) :
    ∃ i, nearRegAxis fma dim s st x = some i ∧
      NearestWithin dim (fun i : Nat => val s + val st * (i : K)) (val x)
        (2 * regularWeightError u η A (val st)
          (1 + lam + positionError u η (((dim - 1 : Nat) : K) + lam)) * val st) i := by
  obtain ⟨c, w, q', hrun, hcell, hq', ht1, ht2, hwf, hwe⟩ := rounds_regular_axis h hwhole fma hdn h2 hs
    hst hx hp hlam hA.1 hA.2 hnear rfl rfl rfl hbounds.node hbounds.obs hbounds.position
    hbounds.weight hbounds.index
  refine ⟨c + nearestOffset w, by unfold nearRegAxis; rw [hrun]; rfl, ?_⟩
  have hst : val s + val st * ((c + 1 : Nat) : K) - (val s + val st * (c : K)) = val st := by
    push_cast; ring
  -- the observation as a position in steps
  obtain ⟨q, hq⟩ : ∃ q, q = (val x - val s) / val st := ⟨_, rfl⟩
  have hxq : val x = val s + val st * q := by
    rw [hq, mul_div_cancel₀ _ hp.ne']; ring
  have hd : ∀ j : Nat, |val x - (val s + val st * (j : K))| = val st * |q - j| := by
    intro j
    rw [hxq, show val s + val st * q - (val s + val st * (j : K)) = val st * (q - j) by ring,
      abs_mul, abs_of_pos hp]
  have hb := abs_le.1 (hq'.trans hpos)
  rw [← hq] at hb
  have := nearestWithin_choice (n := dim)
    (p := fun i : Nat => val s + val st * (i : K)) (x := val x) (t := q - c) (t' := val w) (c := c)
    (ε := regularWeightError u η A (val st)
      (1 + lam + positionError u η (((dim - 1 : Nat) : K) + lam)))
    hcell.1 (by linarith)
    (by simp only [hst]; rw [hxq]; field_simp; ring) (by rw [hq]; exact hwe)
    (fun j hj => ?_) (fun j hj hjn => ?_) (nearestOffset_float hle hh hwf)
  · simp only [hst] at this
    exact this
  · simp only [hd]
    refine mul_le_mul_of_nonneg_left ?_ hp.le
    have h1 : (c : K) ≤ q' := by
      have := hcell.2.1.resolve_left (by omega)
      exact le_of_mul_le_mul_left (by simpa using this) hp
    have h2 : (j : K) + 1 ≤ c := by exact_mod_cast hj
    rw [abs_of_nonneg (a := q - j) (by linarith), abs_le]
    constructor <;> linarith
  · simp only [hd]
    refine mul_le_mul_of_nonneg_left ?_ hp.le
    have h1 : q' ≤ ((c + 1 : Nat) : K) := by
      have := hcell.2.2.resolve_left (by omega)
      exact le_of_mul_le_mul_left (by simpa using this) hp
    have h2 : ((c + 1 : Nat) : K) + 1 ≤ j := by exact_mod_cast hj
    rw [abs_of_nonpos (a := q - j) (by linarith), abs_le]
    constructor <;> linarith

/-- C77, rectilinear grids: at an observation inside the grid range or outside by at most `lam`
end-cell widths, the result is, bit for bit, the value stored at a node such that on every axis no
other node is closer by more than `2 (3u (1 + lam) + ...)` times the width of the cell of the
observation. The stored values may be anything (NaN included). -/
theorem C77_rectilinear (h : Rounds val fin u η Ω) (hcmp : ExactCompare val fin)
    (hle : ExactCompareLe val fin) (hex : ExactIfFloat val fin)
    (htwo : ∃ a, fin a ∧ val a = 2) (hhalf : ∃ a, fin a ∧ val a = 1 / 2) (hu1 : u < 1)
    (grids : Fin N → List T) (vals : List T)
    (hG : (Axes.rectilinear fun k => (grids k).map val).Valid 2 (vals.map val))
    (g : (Fin N → Nat) → T) (hg : Samples (fun k => (grids k).length) vals g)
    (hgrid : ∀ k, ∀ a ∈ grids k, fin a ∧ 2 * |val a| ≤ Ω)
    (x : Fin N → T) (hx : ∀ k, fin (x k) ∧ 2 * |val (x k)| ≤ Ω)
    (lam : K) (hlam : 0 ≤ lam)
    (hnear : ∀ k, NearRange (grids k).length (fun i => ((grids k).map val).getD i 0) lam
      (val (x k)))
    (hΩ : (1 + lam) * (1 + weightCost u) ≤ Ω) :
    ∃ loc, nearestRectilinearAt grids vals x = .ok (g loc) ∧
      ∀ k, ∃ c, InCell (grids k).length (fun i => ((grids k).map val).getD i 0) (val (x k)) c ∧
        (loc k = c ∨ loc k = c + 1) ∧
        NearestWithin (grids k).length (fun i => ((grids k).map val).getD i 0) (val (x k))
          (2 * (weightCost u * (1 + lam) + η) *
            (((grids k).map val).getD (c + 1) 0 - ((grids k).map val).getD c 0)) (loc k) := by
  have hu := h.u_nonneg
  have hτ := weightCost_nonneg hu hu1
  have hlen : ∀ k, 2 ≤ (grids k).length := fun k => by
    have := hG.big k; simpa [Axes.size] using this
  have hnode : ∀ (k : Fin N) (i : Nat), i < (grids k).length →
      ((grids k).map val).getD i 0 = val ((grids k).getD i zero) := fun k i hi => by
    rw [List.getD_eq_getElem _ _ (by simpa using hi), List.getElem_map,
      List.getD_eq_getElem _ _ hi]
  have hincr : ∀ k, Incr (grids k).length (fun i => ((grids k).map val).getD i 0) := fun k => by
    have : Incr ((grids k).map val).length (fun i => ((grids k).map val).getD i 0) :=
      fun i hi => hG.increasing k i hi
    rwa [List.length_map] at this
  have hmem : ∀ (k : Fin N) (i : Nat) (hi : i < (grids k).length),
      fin ((grids k).getD i zero) ∧ 2 * |val ((grids k).getD i zero)| ≤ Ω := fun k i hi => by
    rw [List.getD_eq_getElem _ _ hi]; exact hgrid k _ (List.getElem_mem hi)
  have hvlen : vals.length = ∏ k, (grids k).length := by
    have := hG.len; simpa [Axes.size] using this
  have hslice : IsSlice vals := by
    have := hG.slice; rw [isSlice_iff] at this ⊢; simpa using this
  have hacc : RectilinearAccepted 2 grids vals := by
    refine ⟨hslice, hvlen, hlen, fun k => ?_⟩
    have h2 := hlen k
    have h01 := hincr k 0 (by omega)
    simp only [hnode k 0 (by omega), hnode k (0 + 1) (by omega)] at h01
    have := (hcmp _ _ (hmem k 0 (by omega)).1 (hmem k (0 + 1) (by omega)).1).2 h01
    match hgk : grids k with
    | [] => rw [hgk] at h2; simp at h2
    | [_] => rw [hgk] at h2; simp at h2
    | a :: b :: rest =>
      rw [hgk] at this
      exact ⟨a, b, rest, rfl, this⟩
  have hax := fun k => rounds_nearRect h hcmp hle (half_exact hex htwo hhalf) hu1 (hlen k) (hgrid k)
    (hincr k) (hx k) hlam (hnear k) hΩ
  refine ⟨fun k => nearRectAxis (grids k) (x k), ?_, fun k => ⟨_, (hax k).1, ?_, (hax k).2⟩⟩
  swap
  · show linCell _ _ + nearestOffset _ = _ ∨ linCell _ _ + nearestOffset _ = _
    have := nearestOffset_le (cellPos (fun j => (grids k).getD j zero) (linCell (grids k) (x k)) (x k))
    omega
  rw [nearestRectilinearAt_eq grids vals hslice x, hacc.check le_rfl, Res.ok_bind]
  congr 1
  exact Option.some.inj ((samples_valAt zero _ _ hvlen _ fun k => (hax k).2.1).symm.trans
    (hg _ fun k => (hax k).2.1))

/-- C77: if on every axis node `loc k` is closer than every other node by more than
`2 (3u (1 + lam) + ...)` times the widest cell, its value is returned. -/
theorem C77_rectilinear_clear (h : Rounds val fin u η Ω) (hcmp : ExactCompare val fin)
    (hle : ExactCompareLe val fin) (hex : ExactIfFloat val fin)
    (htwo : ∃ a, fin a ∧ val a = 2) (hhalf : ∃ a, fin a ∧ val a = 1 / 2) (hu1 : u < 1)
    (grids : Fin N → List T) (vals : List T)
    (hG : (Axes.rectilinear fun k => (grids k).map val).Valid 2 (vals.map val))
    (g : (Fin N → Nat) → T) (hg : Samples (fun k => (grids k).length) vals g)
    (hgrid : ∀ k, ∀ a ∈ grids k, fin a ∧ 2 * |val a| ≤ Ω)
    (x : Fin N → T) (hx : ∀ k, fin (x k) ∧ 2 * |val (x k)| ≤ Ω)
    (lam : K) (hlam : 0 ≤ lam)
    (hnear : ∀ k, NearRange (grids k).length (fun i => ((grids k).map val).getD i 0) lam
      (val (x k)))
    (hΩ : (1 + lam) * (1 + weightCost u) ≤ Ω)
    (W : Fin N → K) (hW : ∀ k i, i + 1 < (grids k).length →
      ((grids k).map val).getD (i + 1) 0 - ((grids k).map val).getD i 0 ≤ W k)
    (loc : Fin N → Nat) (hloc : ∀ k, loc k < (grids k).length)
    (hmargin : ∀ k, ∀ j < (grids k).length, j ≠ loc k →
      |val (x k) - ((grids k).map val).getD (loc k) 0| +
        2 * (weightCost u * (1 + lam) + η) * W k < |val (x k) - ((grids k).map val).getD j 0|) :
    nearestRectilinearAt grids vals x = .ok (g loc) := by
  obtain ⟨loc', h1, h2⟩ := C77_rectilinear h hcmp hle hex htwo hhalf hu1 grids vals hG g hg hgrid x hx
    lam hlam hnear hΩ
  have : loc' = loc := by
    funext k
    obtain ⟨c, hc, -, hn⟩ := h2 k
    have hτ := weightCost_nonneg h.u_nonneg hu1
    have hη := h.η_nonneg
    refine hn.eq_of_margin ?_ (hloc k) (hmargin k)
    exact mul_le_mul_of_nonneg_left (hW k c hc.1) (by positivity)
  rw [h1, this]

/-- C77, regular grids: no other node is closer by more than twice the error of the computed weight
times the step, if the error of the computed position is at most half a step. -/
theorem C77_regular (h : Rounds val fin u η Ω) (hcmp : ExactCompare val fin)
    (hle : ExactCompareLe val fin) (hex : ExactIfFloat val fin)
    (htwo : ∃ a, fin a ∧ val a = 2) (hhalf : ∃ a, fin a ∧ val a = 1 / 2) {n : Nat}
    (hwhole : ExactWhole val fin n) (fma : Bool) (dims : Fin N → Nat) (starts steps : Fin N → T)
    (vals : List T)
    (hG : (Axes.regular dims (fun k => val (starts k)) fun k => val (steps k)).Valid 2
      (vals.map val))
    (g : (Fin N → Nat) → T) (hg : Samples dims vals g)
    (hdims : ∀ k, dims k ≤ n) (hfin : ∀ k, fin (starts k) ∧ fin (steps k))
    (A : Fin N → K) (hA : ∀ k, |val (starts k)| ≤ A k ∧
      |val (starts k) + val (steps k) * ((dims k - 1 : Nat) : K)| ≤ A k)
    (x : Fin N → T) (hx : ∀ k, fin (x k)) (lam : K) (hlam : 0 ≤ lam)
    (hnear : ∀ k, NearRange (dims k) (fun i => val (starts k) + val (steps k) * (i : K)) lam
      (val (x k)))
    (hbounds : ∀ k, AxisInBounds u η Ω (A k) lam (val (steps k)) (val (x k)) (dims k))
    (hpos : ∀ k, positionError u η (((dims k - 1 : Nat) : K) + lam) ≤ 1 / 2) :
    ∃ loc, nearestRegularAt fma dims starts steps vals x = .ok (g loc) ∧
      ∀ k, NearestWithin (dims k) (fun i => val (starts k) + val (steps k) * (i : K)) (val (x k))
        (2 * regularWeightError u η (A k) (val (steps k))
          (1 + lam + positionError u η (((dims k - 1 : Nat) : K) + lam)) * val (steps k))
        (loc k) := by
  have hu := h.u_nonneg
  have hη := h.η_nonneg
  have hbig : ∀ k, 2 ≤ dims k := fun k => hG.big k
  have hsp : ∀ k, 0 < val (steps k) := fun k => by
    have := hG.increasing k 0 (hG.big k)
    simp only [Axes.node, Nat.cast_zero, mul_zero, add_zero, zero_add, Nat.cast_one, mul_one] at this
    linarith
  have hvlen : vals.length = ∏ k, dims k := by
    have := hG.len; simpa [Axes.size] using this
  have hslice : IsSlice vals := by
    have := hG.slice; rw [isSlice_iff] at this ⊢; simpa using this
  have hacc : RegularAccepted 2 dims steps vals := by
    refine ⟨hslice, hvlen, hbig, fun k => ?_⟩
    exact (hcmp _ _ hwhole.zero.1 (hfin k).2).2 (by rw [hwhole.zero.2]; exact hsp k)
  have hax := fun k => rounds_nearReg h hle (half_exact hex htwo hhalf) hwhole fma (hdims k) (hbig k)
    (hfin k).1 (hfin k).2 (hx k) (hsp k) hlam (hA k) (hnear k) (hbounds k) (hpos k)
  choose loc hrun hnear' using hax
  refine ⟨loc, ?_, hnear'⟩
  rw [(nearestRegularAt_eq fma dims starts steps vals hslice x).1 _ hrun, hacc.check (by omega), Res.ok_bind]
  congr 1
  exact Option.some.inj ((samples_valAt zero _ _ hvlen _ fun k => (hnear' k).1).symm.trans
    (hg _ fun k => (hnear' k).1))

/-- C77: if on every axis node `loc k` is closer than every other node by more than twice the error
of the computed weight times the step, its value is returned. -/
theorem C77_regular_clear (h : Rounds val fin u η Ω) (hcmp : ExactCompare val fin)
    (hle : ExactCompareLe val fin) (hex : ExactIfFloat val fin)
    (htwo : ∃ a, fin a ∧ val a = 2) (hhalf : ∃ a, fin a ∧ val a = 1 / 2) {n : Nat}
    (hwhole : ExactWhole val fin n) (fma : Bool) (dims : Fin N → Nat) (starts steps : Fin N → T)
    (vals : List T)
    (hG : (Axes.regular dims (fun k => val (starts k)) fun k => val (steps k)).Valid 2
      (vals.map val))
    (g : (Fin N → Nat) → T) (hg : Samples dims vals g)
    (hdims : ∀ k, dims k ≤ n) (hfin : ∀ k, fin (starts k) ∧ fin (steps k))
    (A : Fin N → K) (hA : ∀ k, |val (starts k)| ≤ A k ∧
      |val (starts k) + val (steps k) * ((dims k - 1 : Nat) : K)| ≤ A k)
    (x : Fin N → T) (hx : ∀ k, fin (x k)) (lam : K) (hlam : 0 ≤ lam)
    (hnear : ∀ k, NearRange (dims k) (fun i => val (starts k) + val (steps k) * (i : K)) lam
      (val (x k)))
    (hbounds : ∀ k, AxisInBounds u η Ω (A k) lam (val (steps k)) (val (x k)) (dims k))
    (hpos : ∀ k, positionError u η (((dims k - 1 : Nat) : K) + lam) ≤ 1 / 2)
    (loc : Fin N → Nat) (hloc : ∀ k, loc k < dims k)
    (hmargin : ∀ k, ∀ j < dims k, j ≠ loc k →
      |val (x k) - (val (starts k) + val (steps k) * (loc k : K))| +
        2 * regularWeightError u η (A k) (val (steps k))
          (1 + lam + positionError u η (((dims k - 1 : Nat) : K) + lam)) * val (steps k) <
      |val (x k) - (val (starts k) + val (steps k) * (j : K))|) :
    nearestRegularAt fma dims starts steps vals x = .ok (g loc) := by
  obtain ⟨loc', h1, h2⟩ := C77_regular h hcmp hle hex htwo hhalf hwhole fma dims starts steps vals hG
    g hg hdims hfin A hA x hx lam hlam hnear hbounds hpos
  have : loc' = loc := funext fun k => (h2 k).eq_of_margin le_rfl (hloc k) (hmargin k)
  rw [h1, this]

end

section Examples
open ExtNum

/-- Floating-point numbers with 53 significant bits and exponents up to 1023. -/
@[reducible] def bits53N : FloatOps (ExtNum ℚ) := bitOps 53 1023
attribute [local instance] bits53N

/-- A 3×2 grid of floats. -/
def exNearGrids : Fin 2 → List (ExtNum ℚ) := ![[fin 0, fin (1 / 8), fin 4], [fin 1, fin 3]]

/-- Values on a 3×2 grid, one of them NaN. -/
def exNearVals : List (ExtNum ℚ) := [fin 2, nan, fin (-7), fin 16, fin 10, fin 3]

/-- Hypotheses of `C77_rectilinear_clear` are satisfied: one quarter of an end cell outside on the
first axis and near node 0 of the second, the result is the first value. -/
example : nearestRectilinearAt exNearGrids exNearVals
    ![fin (-1 / 32), fin (6004799503160661 / 2 ^ 52)] = .ok (fin 2) :=
  C77_rectilinear_clear (float_rounds (p := 53) (e := 1023) (by norm_num)) (float_compare 53 1023)
    (float_compareLe 53 1023) (float_exact (by norm_num)) ⟨fin 2, by decide +kernel, rfl⟩
    ⟨fin (1 / 2), by decide +kernel, rfl⟩ (by norm_num) exNearGrids exNearVals
    (valid_of_check (by decide +kernel)) (valAt (fin 0) ![3, 2] exNearVals)
    (samples_valAt _ _ _ (by decide)) (by decide +kernel) _ (by decide +kernel) (1 / 4)
    (by norm_num) (by unfold NearRange; decide +kernel) (by unfold weightCost; decide +kernel)
    ![4, 2]
    (fun k i hi => (show ∀ k, ∀ i < (exNearGrids k).length, i + 1 < (exNearGrids k).length →
      ((exNearGrids k).map value).getD (i + 1) 0 - ((exNearGrids k).map value).getD i 0 ≤
        ![(4 : ℚ), 2] k by decide +kernel) k i (by omega) hi)
    ![0, 0] (by decide) (by unfold weightCost; decide +kernel)

/-- Hypotheses of `C77_regular_clear` are satisfied on an axis with a step close to `1/10`. -/
example : nearestRegularAt false ![3, 2] ![fin 1, fin 1]
    ![fin (3602879701896396 / 2 ^ 55), fin 2] exNearVals
    ![fin (9907919180215090 / 2 ^ 53), fin (5 / 4)] = .ok (fin (-7)) :=
  C77_regular_clear (float_rounds (p := 53) (e := 1023) (by norm_num)) (float_compare 53 1023)
    (float_compareLe 53 1023) (float_exact (by norm_num)) ⟨fin 2, by decide +kernel, rfl⟩
    ⟨fin (1 / 2), by decide +kernel, rfl⟩
    (float_whole (n := 2 ^ 53) le_rfl (Nat.pow_le_pow_right (by norm_num) (by norm_num)))
    false ![3, 2] ![fin 1, fin 1] ![fin (3602879701896396 / 2 ^ 55), fin 2] exNearVals
    (valid_of_check (by decide +kernel)) (valAt (fin 0) ![3, 2] exNearVals)
    (samples_valAt _ _ _ (by decide)) (by decide) (by decide +kernel) ![2, 3] (by decide +kernel)
    ![fin (9907919180215090 / 2 ^ 53), fin (5 / 4)] (by decide +kernel) 0 le_rfl
    (by unfold NearRange; decide +kernel)
    (fun k => by
      fin_cases k <;> constructor <;> simp only [nodeError, positionError] <;> decide +kernel)
    (by unfold positionError; decide +kernel) ![1, 0] (by decide)
    (by simp only [regularWeightError, nodeError, positionError]; decide +kernel)

end Examples
end Interpn
