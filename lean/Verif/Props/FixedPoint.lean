import Verif.Lemmas.DyadicCubic
import Verif.Lemmas.Api
import Verif.Lemmas.IeeeExamples
import Verif.Props.MultilinearExact

/-! C118: on fixed-point data floating-point interpolation is exact. -/

set_option autoImplicit false
set_option linter.unusedSectionVars false

namespace Interpn
open FloatOps Ieee

section
variable {f : Format} {N : Nat}

/-- A float grid with exact increasing nodes is accepted. -/
private theorem accepted_rect {grids : Fin N → List (Ieee f)} {vals : List (Ieee f)}
    (hG : (Axes.rectilinear fun k => (grids k).map val).Valid 2 (vals.map val))
    (hfin : ∀ k, ∀ a ∈ grids k, Finite a) :
    RectilinearAccepted 2 grids vals ∧
      ∀ k, Incr (grids k).length (fun i => ((grids k).map val).getD i 0) := by
  have hlen : ∀ k, 2 ≤ (grids k).length := fun k => by
    have := hG.big k; simpa [Axes.size] using this
  have hincr : ∀ k, Incr (grids k).length (fun i => ((grids k).map val).getD i 0) := fun k => by
    have : Incr ((grids k).map val).length (fun i => ((grids k).map val).getD i 0) :=
      fun i hi => hG.increasing k i hi
    rwa [List.length_map] at this
  have hvlen : vals.length = ∏ k, (grids k).length := by
    have := hG.len; simpa [Axes.size] using this
  have hslice : IsSlice vals := by
    have := hG.slice; rw [isSlice_iff] at this ⊢; simpa using this
  refine ⟨⟨hslice, hvlen, hlen, fun k => ?_⟩, hincr⟩
  have h2 := hlen k
  have h01 := hincr k 0 (by omega)
  have hf := hfin k
  match hgk : grids k with
  | [] => rw [hgk] at h2; simp at h2
  | [_] => rw [hgk] at h2; simp at h2
  | a :: b :: rest =>
    rw [hgk] at h01 hf
    exact ⟨a, b, rest, rfl, (exactCompare f _ _ (hf a (by simp)) (hf b (by simp))).2 h01⟩

private theorem accepted_reg {m : Nat} (h2 : 2 ≤ m) {dims : Fin N → Nat}
    {starts steps : Fin N → Ieee f} {vals : List (Ieee f)}
    (hG : (Axes.regular dims (fun k => val (starts k)) fun k => val (steps k)).Valid m
      (vals.map val)) (hfin : ∀ k, Finite (steps k)) :
    RegularAccepted m dims steps vals ∧ (∀ k, (dims k : Int) ≤ isizeMax) ∧
      ∀ k, Incr (dims k) (fun i : Nat => val (starts k) + val (steps k) * (i : ℚ)) := by
  have hbig : ∀ k, m ≤ dims k := fun k => hG.big k
  have hpos : ∀ k, 0 < val (steps k) := fun k => by
    have := hG.increasing k 0 (lt_of_lt_of_le (by omega) (hG.big k))
    simp only [Axes.node, Nat.cast_zero, mul_zero, add_zero, zero_add, Nat.cast_one, mul_one] at this
    linarith
  have hvlen : vals.length = ∏ k, dims k := by
    have := hG.len; simpa [Axes.size] using this
  have hslice : IsSlice vals := by
    have := hG.slice; rw [isSlice_iff] at this ⊢; simpa using this
  have hacc : RegularAccepted m dims steps vals := ⟨hslice, hvlen, hbig, fun k =>
    (exactCompare f _ _ zero_eq.1 (hfin k)).2 (by rw [zero_eq.2]; exact hpos k)⟩
  refine ⟨hacc, fun k => ?_, fun k i hi => hG.increasing k i hi⟩
  have h1 : dims k ≤ ∏ k, dims k :=
    Finset.single_le_prod' (f := dims) (fun i _ => by have := hbig i; omega) (Finset.mem_univ k)
  have h2 := (isSlice_iff _).1 hslice
  rw [hvlen] at h2
  exact le_trans (by exact_mod_cast h1) h2

/-- Multilinear interpolation on a rectilinear grid of which the nodes of axis `k` are multiples of
`2^(j k)` and the cells are powers of two wide, at most `2^(j k + s k)`. The values are multiples of
`2^q`. If the format has room for the digits that arise, the computed result is exactly the number
that the evaluation in exact arithmetic yields. It is the same for all evaluators, with or without
fused multiply-add. -/
theorem C118_multilinear (e : Evaluator) (he : e.Fits N) (fma : Bool)
    (grids : Fin N → List (Ieee f)) (vals : List (Ieee f))
    (hG : (Axes.rectilinear fun k => (grids k).map val).Valid 2 (vals.map val))
    (j : Fin N → Int) (s : Fin N → Nat) (hgrid : ∀ k, FixedGrid f (j k) (s k) (grids k))
    (q : Int) (B : ℚ) (hvals : ∀ v ∈ vals, Finite v ∧ Multiple q (val v) ∧ |val v| ≤ B)
    (hroom : Room f (q - ((∑ k, s k : Nat) : Int)) (2 * B))
    (x : Fin N → Ieee f) (hx : ∀ k, Finite (x k) ∧ Multiple (j k) (val (x k)))
    (hin : ∀ k, InRange (grids k).length (fun i => ((grids k).map val).getD i 0) (val (x k))) :
    ∃ r, multilinearRectilinearAt e fma grids vals x = .ok r ∧ Finite r ∧
      ∀ (e' : Evaluator) (fma' : Bool), e'.Fits N →
        multilinearAt e' fma' (.rectilinear fun k => (grids k).map val) (vals.map val)
          (fun k => val (x k)) = .ok (val r) := by
  obtain ⟨hacc, hincr⟩ := accepted_rect hG fun k => (hgrid k).finite
  have hax := fun k => (hgrid k).position (hacc.big k) (hincr k) (hx k).1 (hx k).2 (hin k)
  set g := valAt zero (fun k => (grids k).length) vals with hgdef
  have hs := samples_valAt zero (fun k => (grids k).length) vals hacc.len
  rw [← hgdef] at hs
  have hb := blend_dyadic fma s hroom
    (fun k => cellPos (fun i => (grids k).getD i zero) (linCell (grids k) (x k)) (x k))
    (fun k => linCell (grids k) (x k)) g (fun k => ⟨(hax k).2.1, (hax k).2.2.2⟩)
    (fun loc hl => hvals _ (List.mem_of_getElem? (hs loc fun k => by
      have := linCell_bound (hacc.big k) (x k)
      show loc k < (grids k).length
      rcases hl k with h | h <;> omega)))
  refine ⟨_, by rw [multilinearRectilinearAt_eq e he fma grids vals hacc.slice x,
    hacc.check le_rfl, Res.ok_bind]; rfl, hb.1, fun e' fma' he' => ?_⟩
  have hsize : (Axes.rectilinear fun k => (grids k).map val).size = fun k => (grids k).length := by
    funext k; simp [Axes.size]
  have hs' : Samples (Axes.rectilinear fun k => (grids k).map val).size (vals.map val)
      (fun loc => val (g loc)) := by
    rw [hsize]
    intro loc hl
    rw [List.getElem?_map, hs loc hl]; rfl
  rw [multilinearAt_eq e' he' fma' (.rectilinear fun k => (grids k).map val) (vals.map val) hG
    _ hs' (fun k => val (x k)) trivial (fun k => linCell (grids k) (x k))
    (fun k => by rw [hsize]; exact (hax k).1)]
  refine congrArg _ (Eq.trans ?_ hb.2.1.symm)
  unfold blend
  refine axisByAxis_congr_op _ _ _ fun k f => ?_
  dsimp only
  rw [(hax k).2.2.1]
  exact linPiece_weights f

/-- The same on regular grids: the start of axis `k` is a multiple of `2^(j k)` and the step is
`2^(j k + s k)`. -/
theorem C118_multilinear_regular (e : Evaluator) (he : e.Fits N) (fma : Bool) (dims : Fin N → Nat)
    (starts steps : Fin N → Ieee f) (vals : List (Ieee f))
    (hG : (Axes.regular dims (fun k => val (starts k)) fun k => val (steps k)).Valid 2
      (vals.map val))
    (j : Fin N → Int) (s : Fin N → Nat)
    (hgrid : ∀ k, FixedRegular f (j k) (s k) (dims k) (starts k) (steps k))
    (q : Int) (B : ℚ) (hvals : ∀ v ∈ vals, Finite v ∧ Multiple q (val v) ∧ |val v| ≤ B)
    (hroom : Room f (q - ((∑ k, s k : Nat) : Int)) (2 * B))
    (x : Fin N → Ieee f) (hx : ∀ k, Finite (x k) ∧ Multiple (j k) (val (x k)))
    (hin : ∀ k, InRange (dims k) (fun i : Nat => val (starts k) + val (steps k) * (i : ℚ))
      (val (x k))) :
    ∃ r, multilinearRegularAt e fma dims starts steps vals x = .ok r ∧ Finite r ∧
      ∀ (e' : Evaluator) (fma' : Bool), e'.Fits N →
        multilinearAt e' fma' (.regular dims (fun k => val (starts k)) fun k => val (steps k))
          (vals.map val) (fun k => val (x k)) = .ok (val r) := by
  obtain ⟨hacc, hdim, hincr⟩ := accepted_reg le_rfl hG fun k => (hgrid k).finite.2
  have hax := fun k => (hgrid k).position (hacc.big k) (hdim k) (e.fmaLoc fma) (hx k).1 (hx k).2
    (hin k)
  choose c w hrun hcell hwf hwv hwm using hax
  set g := valAt zero dims vals with hgdef
  have hs := samples_valAt zero dims vals hacc.len
  rw [← hgdef] at hs
  have hb := blend_dyadic fma s hroom w c g (fun k => ⟨hwf k, hwm k⟩)
    (fun loc hl => hvals _ (List.mem_of_getElem? (hs loc fun k => by
      have := (hcell k).1
      rcases hl k with h | h <;> omega)))
  refine ⟨_, by rw [(multilinearRegularAt_eq e he fma dims starts steps vals hacc.slice x).1
    (fun k => (c k, w k)) hrun, hacc.check (by omega), Res.ok_bind], hb.1, fun e' fma' he' => ?_⟩
  have hs' : Samples (Axes.regular dims (fun k => val (starts k)) fun k => val (steps k)).size
      (vals.map val) (fun loc => val (g loc)) := by
    intro loc hl
    rw [List.getElem?_map]
    exact congrArg (Option.map val) (hs loc hl)
  rw [multilinearAt_eq e' he' fma' (.regular dims (fun k => val (starts k)) fun k => val (steps k))
    (vals.map val) hG _ hs' (fun k => val (x k)) (hG.inRange_fits le_rfl hin _ (by decide)) c hcell]
  refine congrArg _ (Eq.trans ?_ hb.2.1.symm)
  unfold blend
  refine axisByAxis_congr_op _ _ _ fun k f => ?_
  dsimp only
  rw [hwv k]
  exact linPiece_weights f

/-- Multicubic interpolation on regular grids. Each axis adds `1 + 3 s k` binary places, and the
intermediate results are at most `32 (5/4)^(N-1)` times as large as the values. -/
theorem C118_multicubic_regular (e : Evaluator) (he : e.Fits N) (fma : Bool) (dims : Fin N → Nat)
    (starts steps : Fin N → Ieee f) (vals : List (Ieee f)) (lin : Bool)
    (hG : (Axes.regular dims (fun k => val (starts k)) fun k => val (steps k)).Valid 4
      (vals.map val))
    (j : Fin N → Int) (s : Fin N → Nat)
    (hgrid : ∀ k, FixedRegular f (j k) (s k) (dims k) (starts k) (steps k))
    (q : Int) (B : ℚ) (hvals : ∀ v ∈ vals, Finite v ∧ Multiple q (val v) ∧ |val v| ≤ B)
    (hroom : Room f (q - ((∑ k, (1 + 3 * s k) : Nat) : Int)) (32 * ((5 / 4) ^ (N - 1) * B)))
    (x : Fin N → Ieee f) (hx : ∀ k, Finite (x k) ∧ Multiple (j k) (val (x k)))
    (hin : ∀ k, InRange (dims k) (fun i : Nat => val (starts k) + val (steps k) * (i : ℚ))
      (val (x k))) :
    ∃ r, multicubicRegularAt e fma dims starts steps vals lin x = .ok r ∧ Finite r ∧
      ∀ (e' : Evaluator) (fma' : Bool), e'.Fits N →
        multicubicAt e' fma' (.regular dims (fun k => val (starts k)) fun k => val (steps k))
          (vals.map val) lin (fun k => val (x k)) = .ok (val r) := by
  obtain ⟨hacc, hdim, hincr⟩ := accepted_reg (by omega) hG fun k => (hgrid k).finite.2
  have hax := fun k => (hgrid k).footprint (hacc.big k) (hdim k) (hx k).1 (hx k).2 (hin k)
  choose t hrun htf hsat using hax
  set g := valAt zero dims vals with hgdef
  have hs := samples_valAt zero dims vals hacc.len
  rw [← hgdef] at hs
  have hg : ∀ loc : Fin N → Nat, (∀ k, loc k < dims k) → Fix q B (g loc) (val (g loc)) :=
    fun loc hl => by
      obtain ⟨h1, h2, h3⟩ := hvals _ (List.mem_of_getElem? (hs loc hl))
      exact ⟨h1, rfl, h2, h3⟩
  have hB : 0 ≤ B := (abs_nonneg _).trans
    (hg (fun _ => 0) fun k => by have := hacc.big k; omega).le
  have key := fix_axisByAxis hB (fun k => 1 + 3 * s k) hroom (fun k i => i < dims k)
    (fun k => cubRegRule fma (e.fmaLow fma) lin
      (clampIdx (⌊(val (x k) - val (starts k)) / val (steps k)⌋ - 1) (dims k - 4),
        satRegular (dims k) ⌊(val (x k) - val (starts k)) / val (steps k)⌋, t k))
    (fun k v => cubicPiece (dims k) (fun i : Nat => val (starts k) + val (steps k) * (i : ℚ)) v lin
      (clampIdx ⌊(val (x k) - val (starts k)) / val (steps k)⌋ (dims k - 2)) (val (x k)))
    g (fun loc => val (g loc))
    (fun k m' B' v v' hr hv => cubRegRule_dyadic hr fma (e.fmaLow fma) lin (hacc.big k)
      ((hgrid k).digits (by have := hacc.big k; omega)) (hgrid k).step_pos (hin k) (htf k) (hsat k) hv)
    hg
  refine ⟨_, by
    rw [multicubicRegularAt_eq e he fma (totalOfUsize f) dims starts steps vals lin hacc.slice x,
      hacc.check (by omega), Res.ok_bind,
      axisLoop_ok N _ _ _ (fun k => by simp only [aget_fin, Res.ok_bind]; exact hrun k),
      Res.ok_bind], key.fin, fun e' fma' he' => ?_⟩
  have hs' : Samples (Axes.regular dims (fun k => val (starts k)) fun k => val (steps k)).size
      (vals.map val) (fun loc => val (g loc)) := by
    intro loc hl
    rw [List.getElem?_map]
    exact congrArg (Option.map val) (hs loc hl)
  rw [multicubicAt_eq e' he' fma' (.regular dims (fun k => val (starts k)) fun k => val (steps k))
    (vals.map val) lin hG _ hs' (fun k => val (x k))
    (hG.inRange_fits (by norm_num) hin _ (by norm_num)) _
    (fun k => regular_inCell (hgrid k).step_pos
      (show 2 ≤ dims k by have := hacc.big k; omega))]
  exact congrArg _ key.eq.symm

/-- Nearest-neighbor interpolation selects the node that is nearest in exact arithmetic, the lower one
at midpoints. The values are arbitrary, also NaN or infinite. -/
theorem C118_nearest (grids : Fin N → List (Ieee f)) (vals : List (Ieee f))
    (hG : (Axes.rectilinear fun k => (grids k).map val).Valid 2 (vals.map val))
    (j : Fin N → Int) (s : Fin N → Nat) (hgrid : ∀ k, FixedGrid f (j k) (s k) (grids k))
    (g : (Fin N → Nat) → Ieee f) (hg : Samples (fun k => (grids k).length) vals g)
    (x : Fin N → Ieee f) (hx : ∀ k, Finite (x k) ∧ Multiple (j k) (val (x k)))
    (hin : ∀ k, InRange (grids k).length (fun i => ((grids k).map val).getD i 0) (val (x k)))
    (i : Fin N → Nat) (hi : ∀ k, IsNearest (grids k).length (fun i => ((grids k).map val).getD i 0)
      (val (x k)) (i k)) :
    nearestRectilinearAt grids vals x = .ok (g i) := by
  obtain ⟨hacc, hincr⟩ := accepted_rect hG fun k => (hgrid k).finite
  have hax := fun k => (hgrid k).position (hacc.big k) (hincr k) (hx k).1 (hx k).2 (hin k)
  have hn : ∀ k, nearRectAxis (grids k) (x k) = i k := fun k =>
    (nearest_dyadic (hincr k) (hax k).1 (hax k).2.1 (hax k).2.2.1).unique (hi k)
  have hs := samples_valAt zero (fun k => (grids k).length) vals hacc.len i fun k => (hi k).1
  rw [hg i fun k => (hi k).1, Option.some.injEq] at hs
  rw [nearestRectilinearAt_eq grids vals hacc.slice x, hacc.check le_rfl, Res.ok_bind, funext hn, hs]

/-- The same on regular grids. -/
theorem C118_nearest_regular (fma : Bool) (dims : Fin N → Nat) (starts steps : Fin N → Ieee f)
    (vals : List (Ieee f))
    (hG : (Axes.regular dims (fun k => val (starts k)) fun k => val (steps k)).Valid 2
      (vals.map val))
    (j : Fin N → Int) (s : Fin N → Nat)
    (hgrid : ∀ k, FixedRegular f (j k) (s k) (dims k) (starts k) (steps k))
    (g : (Fin N → Nat) → Ieee f) (hg : Samples dims vals g)
    (x : Fin N → Ieee f) (hx : ∀ k, Finite (x k) ∧ Multiple (j k) (val (x k)))
    (hin : ∀ k, InRange (dims k) (fun i : Nat => val (starts k) + val (steps k) * (i : ℚ))
      (val (x k)))
    (i : Fin N → Nat) (hi : ∀ k, IsNearest (dims k)
      (fun i : Nat => val (starts k) + val (steps k) * (i : ℚ)) (val (x k)) (i k)) :
    nearestRegularAt fma dims starts steps vals x = .ok (g i) := by
  obtain ⟨hacc, hdim, hincr⟩ := accepted_reg le_rfl hG fun k => (hgrid k).finite.2
  have hax := fun k => (hgrid k).position (hacc.big k) (hdim k) fma (hx k).1 (hx k).2 (hin k)
  choose c w hrun hcell hwf hwv hwm using hax
  have hn : ∀ k, nearRegAxis fma (dims k) (starts k) (steps k) (x k) = some (i k) := fun k => by
    unfold nearRegAxis
    rw [hrun k]
    exact congrArg some ((nearest_dyadic (hincr k) (hcell k) (hwf k) (hwv k)).unique (hi k))
  have hs := samples_valAt zero dims vals hacc.len i fun k => (hi k).1
  rw [hg i fun k => (hi k).1, Option.some.injEq] at hs
  rw [(nearestRegularAt_eq fma dims starts steps vals hacc.slice x).1 i hn, hacc.check (by omega),
    Res.ok_bind, hs]

end

/-! ### Concrete cases -/

section Examples

/-- Multiples by computation. -/
theorem multiple_of_check {e : Int} {q : ℚ} (h : (q / 2 ^ e).den = 1) : Multiple e q := by
  refine ⟨(q / 2 ^ e).num, ?_⟩
  have h1 : ((q / 2 ^ e).num : ℚ) = q / 2 ^ e := Rat.den_eq_one_iff _ |>.1 h
  rw [h1]
  exact (div_mul_cancel₀ _ (zpow_ne_zero _ (by norm_num))).symm

/-- Fixed-point axes by computation. -/
theorem fixedGrid_of_check {f : Format} {j : Int} {s : Nat} {grid : List (Ieee f)}
    (h0 : f.emin - (f.p - 1 : Int) ≤ j ∧ s ≤ f.p ∧ j + s ≤ f.emax)
    (h1 : ∀ a ∈ grid, Finite a ∧ (val a / 2 ^ j).den = 1)
    (h2 : ∀ i < grid.length - 1, ∃ c < s + 1,
      val (grid.getD (i + 1) zero) - val (grid.getD i zero) = 2 ^ (j + (c : Int))) :
    FixedGrid f j s grid := by
  refine ⟨h0.1, h0.2.1, h0.2.2, fun a ha => (h1 a ha).1, fun a ha => multiple_of_check (h1 a ha).2,
    fun i a b ha hb => ?_⟩
  obtain ⟨hi, rfl⟩ := List.getElem?_eq_some_iff.1 ha
  obtain ⟨hj, rfl⟩ := List.getElem?_eq_some_iff.1 hb
  obtain ⟨c, hc, h⟩ := h2 i (by omega)
  rw [List.getD_eq_getElem _ _ hi, List.getD_eq_getElem _ _ hj] at h
  exact ⟨c, by omega, h⟩

/-- A 4×2 grid, nodes with up to three binary places. -/
def exFixed : Fin 2 → List F32 := ![[q32 0, q32 (1 / 2), q32 1, q32 3], [q32 (-1 / 8), q32 (1 / 8)]]

theorem exFixed_grid : ∀ k, FixedGrid .binary32 (![-4, -3] k) (![5, 1] k) (exFixed k) := by
  intro k
  fin_cases k
  · exact fixedGrid_of_check (by decide) (by decide +kernel) (by decide +kernel)
  · exact fixedGrid_of_check (by decide) (by decide +kernel) (by decide +kernel)

/-- Values with two binary places. -/
def exFixedVals : List F32 := ([2, 6, -7, 63 / 4, 10, 1 / 4, -1 / 2, 3] : List ℚ).map q32

theorem exFixed_room : Room .binary32 (-2 - ((∑ k, ![5, 1] k : Nat) : Int)) (2 * 16) :=
  ⟨by decide, by decide +kernel, by decide +kernel⟩

/-- Hypotheses of `C118_multilinear` are satisfied in `f32`: the result at `(25/16, 0)` needs eleven
binary digits, and the exact one is the same. -/
example : multilinearRectilinearAt (.recursive 8) true exFixed exFixedVals ![q32 (25 / 16), q32 0] =
      .ok (q32 (1033 / 256)) ∧
    multilinearAt .flat false (.rectilinear fun k => (exFixed k).map val) (exFixedVals.map val)
      (fun k => val (![q32 (25 / 16), q32 0] k)) = .ok (1033 / 256) := by
  obtain ⟨r, h1, h2, h3⟩ := C118_multilinear (.recursive 8) (by decide : 0 < 2 ∧ 2 ≤ 8) true exFixed exFixedVals
    (valid_of_check (by decide +kernel)) ![-4, -3] ![5, 1] exFixed_grid (-2) 16
    (fun v hv => ⟨by revert v; decide +kernel, multiple_of_check (by revert v; decide +kernel),
      by revert v; decide +kernel⟩) exFixed_room ![q32 (25 / 16), q32 0]
    (fun k => ⟨by revert k; decide +kernel, multiple_of_check (by revert k; decide +kernel)⟩)
    (by decide +kernel)
  have h4 : multilinearRectilinearAt (.recursive 8) true exFixed exFixedVals ![q32 (25 / 16), q32 0] =
      .ok (q32 (1033 / 256)) := by decide +kernel
  rw [h4, Res.ok.injEq] at h1
  refine ⟨h4, (h3 .flat false (by decide : (0 : Nat) < 2)).trans (congrArg _ ?_)⟩
  rw [← h1]
  decide +kernel

/-- A 3×2 regular grid in `f64` with steps `1/4` and `2`. -/
theorem exFixedRegular : ∀ k, FixedRegular .binary64 (![-10, -3] k) (![8, 4] k) (![3, 2] k)
    (![q64 (-3 / 8), q64 1] k) (![q64 (1 / 4), q64 2] k) := by
  intro k
  fin_cases k
  · exact ⟨by decide, by decide, by decide +kernel, multiple_of_check (by decide +kernel),
      by decide +kernel, by decide +kernel, by decide +kernel⟩
  · exact ⟨by decide, by decide, by decide +kernel, multiple_of_check (by decide +kernel),
      by decide +kernel, by decide +kernel, by decide +kernel⟩

/-- Hypotheses of `C118_multilinear_regular` are satisfied in `f64`. -/
example : ∃ r, multilinearRegularAt .flat false ![3, 2] ![q64 (-3 / 8), q64 1]
      ![q64 (1 / 4), q64 2] [q64 2, q64 6, q64 (-7), q64 16, q64 10, q64 3]
      ![q64 (-123 / 1024), q64 (11 / 8)] = .ok r ∧ Finite r ∧
    ∀ (e' : Evaluator) (fma' : Bool), e'.Fits 2 →
      multilinearAt e' fma' (.regular ![3, 2] (fun k => val (![q64 (-3 / 8), q64 1] k))
        fun k => val (![q64 (1 / 4), q64 2] k))
        ([q64 2, q64 6, q64 (-7), q64 16, q64 10, q64 3].map val)
        (fun k => val (![q64 (-123 / 1024), q64 (11 / 8)] k)) = .ok (val r) :=
  C118_multilinear_regular .flat (by decide : (0 : Nat) < 2) false ![3, 2] ![q64 (-3 / 8), q64 1]
    ![q64 (1 / 4), q64 2] [q64 2, q64 6, q64 (-7), q64 16, q64 10, q64 3]
    (valid_of_check (by decide +kernel)) ![-10, -3] ![8, 4] exFixedRegular 0 16
    (fun v hv => ⟨by revert v; decide +kernel, multiple_of_check (by revert v; decide +kernel),
      by revert v; decide +kernel⟩)
    ⟨by decide, by decide +kernel, by decide +kernel⟩ _
    (fun k => ⟨by revert k; decide +kernel, multiple_of_check (by revert k; decide +kernel)⟩)
    (by decide +kernel)

/-- Values on a 5×4 grid with two binary places. -/
def exFixedCubicVals : List F64 :=
  ([2, 6, -7, 63 / 4, 10, 1 / 4, -1 / 2, 3, 5, 1, -2, 8, 0, 7, 1, 4, -9, 6, 12, 5 / 2] : List ℚ).map
    q64

/-- Eighths on a 5×4 grid with steps `1/4` and `2`. -/
theorem exFixedCubic : ∀ k, FixedRegular .binary64 (![-5, 0] k) (![3, 1] k) (![5, 4] k)
    (![q64 (-3 / 8), q64 1] k) (![q64 (1 / 4), q64 2] k) := by
  intro k
  fin_cases k
  · exact ⟨by decide, by decide, by decide +kernel, multiple_of_check (by decide +kernel),
      by decide +kernel, by decide +kernel, by decide +kernel⟩
  · exact ⟨by decide, by decide, by decide +kernel, multiple_of_check (by decide +kernel),
      by decide +kernel, by decide +kernel, by decide +kernel⟩

/-- Hypotheses of `C118_multicubic_regular` are satisfied in `f64`: the first coordinate lies in the
first cell of its axis, the second one is the upper end. -/
example : ∃ r, multicubicRegularAt (.recursive 8) true ![5, 4] ![q64 (-3 / 8), q64 1]
      ![q64 (1 / 4), q64 2] exFixedCubicVals true ![q64 (-7 / 32), q64 7] = .ok r ∧ Finite r ∧
    ∀ (e' : Evaluator) (fma' : Bool), e'.Fits 2 →
      multicubicAt e' fma' (.regular ![5, 4] (fun k => val (![q64 (-3 / 8), q64 1] k))
        fun k => val (![q64 (1 / 4), q64 2] k)) (exFixedCubicVals.map val) true
        (fun k => val (![q64 (-7 / 32), q64 7] k)) = .ok (val r) :=
  C118_multicubic_regular (.recursive 8) (by decide : 0 < 2 ∧ 2 ≤ 8) true ![5, 4]
    ![q64 (-3 / 8), q64 1] ![q64 (1 / 4), q64 2] exFixedCubicVals true
    (valid_of_check (by decide +kernel)) ![-5, 0] ![3, 1] exFixedCubic (-2) 16
    (fun v hv => ⟨by revert v; decide +kernel, multiple_of_check (by revert v; decide +kernel),
      by revert v; decide +kernel⟩)
    ⟨by decide, by decide +kernel, by decide +kernel⟩ _
    (fun k => ⟨by revert k; decide +kernel, multiple_of_check (by revert k; decide +kernel)⟩)
    (by decide +kernel)

/-- Hypotheses of `C118_nearest` are satisfied: the midpoint between the nodes `1` and `3`, and a table
with a NaN. -/
example : nearestRectilinearAt exFixed
      [q32 2, .nan, q32 (-7), q32 16, q32 10, q32 3, q32 5, .nan] ![q32 2, q32 (1 / 8)] =
    .ok (q32 3) := by
  have hs : Samples (fun k => (exFixed k).length)
      [q32 2, .nan, q32 (-7), q32 16, q32 10, q32 3, q32 5, .nan]
      (valAt zero (fun k => (exFixed k).length) _) := samples_valAt zero _ _ (by decide)
  rw [C118_nearest exFixed _ (valid_of_check (by decide +kernel)) ![-4, -3] ![5, 1] exFixed_grid _ hs
    ![q32 2, q32 (1 / 8)]
    (fun k => ⟨by revert k; decide +kernel, multiple_of_check (by revert k; decide +kernel)⟩)
    (by decide +kernel) ![2, 1] (by decide +kernel)]
  decide +kernel

/-- Hypotheses of `C118_nearest_regular` are satisfied. -/
example : nearestRegularAt true ![3, 2] ![q64 (-3 / 8), q64 1] ![q64 (1 / 4), q64 2]
      [q64 2, q64 6, q64 (-7), q64 16, q64 10, .inf true] ![q64 0, q64 (17 / 8)] =
    .ok (q64 16) := by
  have hs : Samples ![3, 2] [q64 2, q64 6, q64 (-7), q64 16, q64 10, .inf true]
      (valAt zero ![3, 2] _) := samples_valAt zero _ _ (by decide)
  rw [C118_nearest_regular true ![3, 2] ![q64 (-3 / 8), q64 1] ![q64 (1 / 4), q64 2] _
    (valid_of_check (by decide +kernel)) ![-10, -3] ![8, 4] exFixedRegular _ hs
    ![q64 0, q64 (17 / 8)]
    (fun k => ⟨by revert k; decide +kernel, multiple_of_check (by revert k; decide +kernel)⟩)
    (by decide +kernel) ![1, 1] (by decide +kernel)]
  decide +kernel

end Examples
end Interpn
