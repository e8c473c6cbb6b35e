import Verif.Lemmas.RoundingWeights
import Verif.Spec.ExtNum
import Verif.Lemmas.ExampleGrids
import Verif.Lemmas.RoundNum

/-! C53, C57: accuracy of multilinear interpolation in rounded arithmetic, for every float type
satisfying the standard rounding model of `Spec/Rounding.lean`. -/

set_option autoImplicit false
set_option linter.unusedSectionVars false

namespace Interpn
open FloatOps

section
variable {T K : Type} [FloatOps T] [Field K] [LinearOrder K] [IsStrictOrderedRing K]
  {val : T → K} {fin : T → Prop} {u η Ω : K} {N : Nat}

theorem blend_congr {w : Fin N → K} {c : Fin N → Nat} {g g' : (Fin N → Nat) → K}
    (h : ∀ loc : Fin N → Nat, (∀ k, loc k = c k ∨ loc k = c k + 1) → g loc = g' loc) :
    blend w c g = blend w c g' :=
  axisByAxis_congr (fun k i => i = c k ∨ i = c k + 1) _ _ _ _
    (fun k f f' hf => by rw [hf _ (.inl rfl), hf _ (.inr rfl)]) h

/-! ### C53: the blend -/

/-- Multilinear interpolation on a rectilinear grid: the result is a blend of the values at the
corners of one cell `c` with the weights `w` that the code computes for that cell. If those are
finite, `|1 - w| + |w| ≤ L` (`L = 1` for weights in `[0, 1]`), the corner values are at most `M`
and nothing overflows, then the result is finite and differs from the exact blend by at most
`blendError u η L M N`. -/
theorem C53_rectilinear (h : Rounds val fin u η Ω) (e : Evaluator) (he : e.Fits N) (fma : Bool)
    (grids : Fin N → List T) (vals : List T) (hG : RectilinearAccepted 2 grids vals)
    (g : (Fin N → Nat) → T) (hg : Samples (fun k => (grids k).length) vals g) (x : Fin N → T) :
    ∃ (c : Fin N → Nat) (w : Fin N → T) (r : T),
      (∀ k, ∃ a b, (grids k)[c k]? = some a ∧ (grids k)[c k + 1]? = some b ∧
        w k = (x k -. a) /. (b -. a)) ∧
      multilinearRectilinearAt e fma grids vals x = .ok r ∧
      ∀ L M : K, 1 ≤ L → 0 ≤ M →
        (∀ k, fin (w k) ∧ |1 - val (w k)| + |val (w k)| ≤ L) →
        (∀ loc : Fin N → Nat, (∀ k, loc k = c k ∨ loc k = c k + 1) →
          fin (g loc) ∧ |val (g loc)| ≤ M) →
        2 * (1 + u) ^ 2 * (L * blendSize u η L M (N - 1)) + η ≤ Ω →
        fin r ∧ |val r - blend (fun k => val (w k)) c (fun loc => val (g loc))| ≤
          blendError u η L M N := by
  have hb : ∀ k, linCell (grids k) (x k) + 2 ≤ (grids k).length := fun k =>
    linCell_bound (hG.big k) _
  refine ⟨fun k => linCell (grids k) (x k),
    fun k => cellPos (fun i => (grids k).getD i zero) (linCell (grids k) (x k)) (x k),
    axisByAxis (fun k => linRule fma (grids k) (x k)) g,
    fun k => ⟨_, _, List.getElem?_eq_getElem (by have := hb k; simp only; omega),
      List.getElem?_eq_getElem (by have := hb k; simp only; omega), ?_⟩,
    ?_, fun L M hL hM hw hgM hΩ => ?_⟩
  · have := hb k
    simp only [cellPos]
    rw [List.getD_eq_getElem _ _ (by omega), List.getD_eq_getElem _ _ (by omega)]
  · rw [multilinearRectilinearAt_eq e he fma grids vals hG.slice x, hG.check le_rfl, Res.ok_bind]
    congr 1
    refine axisByAxis_congr (fun k i => i < (grids k).length) _ _ _ _ ?_ ?_
    · intro k f f' hf
      unfold linRule
      congr 1
      funext p
      have := hb k
      exact hf _ (by omega)
    · intro loc hl
      have h1 := samples_valAt zero _ _ hG.len loc hl
      rw [hg loc hl] at h1
      exact (Option.some.inj h1).symm
  · have := rounds_blend h fma hL hM _ _ g (fun k => (hw k).1) (fun k => (hw k).2) hgM hΩ
    exact ⟨this.1, this.2.2⟩

/-- The same on a regular grid. The cell is the clamped integer part of `(x - start) / step`, and
the weights are computed from the cell's lower node `start + step * c` (with a fused or a separate
multiplication). -/
theorem C53_regular (h : Rounds val fin u η Ω) (e : Evaluator) (he : e.Fits N) (fma : Bool)
    (dims : Fin N → Nat) (starts steps : Fin N → T) (vals : List T)
    (hG : RegularAccepted 2 dims steps vals) (g : (Fin N → Nat) → T) (hg : Samples dims vals g)
    (x : Fin N → T) (r : T) (hr : multilinearRegularAt e fma dims starts steps vals x = .ok r) :
    ∃ (c : Fin N → Nat) (w : Fin N → T),
      (∀ k, ∃ z f, toIsize (floor ((x k -. starts k) /. steps k)) = some z ∧
        (c k : Int) = max 0 (min z (dims k - 2)) ∧ ofUsize (c k) = some f ∧
        (w k = (x k -. (starts k +. steps k *. f)) /. steps k ∨
          fma = true ∧ w k = (x k -. mulAdd (steps k) f (starts k)) /. steps k)) ∧
      ∀ L M : K, 1 ≤ L → 0 ≤ M →
        (∀ k, fin (w k) ∧ |1 - val (w k)| + |val (w k)| ≤ L) →
        (∀ loc : Fin N → Nat, (∀ k, loc k = c k ∨ loc k = c k + 1) →
          fin (g loc) ∧ |val (g loc)| ≤ M) →
        2 * (1 + u) ^ 2 * (L * blendSize u η L M (N - 1)) + η ≤ Ω →
        fin r ∧ |val r - blend (fun k => val (w k)) c (fun loc => val (g loc))| ≤
          blendError u η L M N := by
  have heq := multilinearRegularAt_eq e he fma dims starts steps vals hG.slice x
  simp only [hG.check (by omega), Res.ok_bind] at heq
  by_cases hn : ∃ k, linRegAxis (e.fmaLoc fma) (dims k) (starts k) (steps k) (x k) = none
  · rw [heq.2 hn] at hr
    cases hr
  push Not at hn
  have ha := fun k => Option.ne_none_iff_exists'.1 (hn k)
  choose a ha using ha
  have hb : ∀ k, (a k).1 + 2 ≤ dims k := fun k => linRegAxis_bound (hG.big k) (ha k)
  rw [heq.1 a ha, Res.ok.injEq] at hr
  have hr' : axisByAxis (fun k f => lerp fma (a k).2 fun p => f ((a k).1 + p.val)) g = r := by
    rw [← hr]
    refine axisByAxis_congr (fun k i => i < dims k) _ _ _ _ ?_ ?_
    · intro k f f' hf
      congr 1
      funext p
      have := hb k
      exact hf _ (by omega)
    · intro loc hl
      have h1 := samples_valAt zero _ _ hG.len loc hl
      rw [hg loc hl] at h1
      exact Option.some.inj h1
  refine ⟨fun k => (a k).1, fun k => (a k).2, fun k => ?_, fun L M hL hM hw hgM hΩ => ?_⟩
  · have hk := ha k
    unfold linRegAxis at hk
    split at hk
    · cases hk
    · next z hz =>
      split at hk
      · cases hk
      · next f hf =>
        rw [Option.some.injEq] at hk
        simp only [← hk]
        have := hG.big k
        refine ⟨z, f, hz, ?_, hf, ?_⟩
        · simp only [clampIdx]; omega
        · cases e with
          | flat =>
            cases fma
            · left; rfl
            · right; exact ⟨rfl, rfl⟩
          | recursive M => left; rfl
  · have := rounds_blend h fma hL hM _ _ g (fun k => (hw k).1) (fun k => (hw k).2) hgM hΩ
    rw [hr'] at this
    exact ⟨this.1, this.2.2⟩

/-- Weights in `[0, 1]` qualify with `L = 1`, and then the bound is `((1 + c)^N - 1) M` with `c` about
`5 u`, plus a multiple of the underflow error. -/
theorem C53_unit_weights (M : K) (t : K) (h0 : 0 ≤ t) (h1 : t ≤ 1) :
    |1 - t| + |t| ≤ 1 ∧ blendError u η 1 M N =
      ((1 + blendCost u) ^ N - 1) * M + N * (1 + blendCost u) ^ N * ((1 + u) * η) := by
  refine ⟨?_, ?_⟩
  · rw [abs_of_nonneg (by linarith), abs_of_nonneg h0]; linarith
  · unfold blendError; rw [one_mul, one_pow]

/-- Without underflow the error is at most `12 N u M`, as long as `12 N u ≤ 1`. -/
theorem C53_simple_bound (hu : 0 ≤ u) (M : K) (hM : 0 ≤ M) (hN : 12 * N * u ≤ 1) :
    blendError u 0 1 M N ≤ 12 * N * u * M := by
  unfold blendError
  rw [one_mul, one_pow, mul_zero, mul_zero, add_zero]
  refine mul_le_mul_of_nonneg_right ?_ hM
  rcases Nat.eq_zero_or_pos N with rfl | hpos
  · simp
  have hN1 : (1 : K) ≤ N := by exact_mod_cast hpos
  have hu12 : 12 * u ≤ 1 := by nlinarith
  have hα0 := blendCost_nonneg hu
  have hα : blendCost u ≤ 6 * u := by
    unfold blendCost
    nlinarith [mul_nonneg hu hu]
  have key : ∀ n : Nat, n ≤ N → (1 + blendCost u) ^ n ≤ 1 + 2 * n * blendCost u := by
    intro n
    induction n with
    | zero => intro _; simp
    | succ n ih =>
      intro hn
      have hnN : (n : K) ≤ N := by exact_mod_cast (Nat.le_of_succ_le hn)
      have h1 := ih (by omega)
      have h2 : 2 * (n : K) * blendCost u ≤ 1 := by
        calc 2 * (n : K) * blendCost u ≤ 2 * N * (6 * u) := by gcongr
          _ = 12 * N * u := by ring
          _ ≤ 1 := hN
      rw [pow_succ]
      push_cast
      nlinarith
  have := key N le_rfl
  have h3 : 2 * (N : K) * blendCost u ≤ 2 * N * (6 * u) := by gcongr
  linarith

end

/-! ### C57: end-to-end accuracy on rectilinear grids -/

section
variable {T K : Type} [FloatOps T] [Field K] [LinearOrder K] [IsStrictOrderedRing K] [FloorRing K]
  {val : T → K} {fin : T → Prop} {u η Ω : K} {N : Nat}

/-- Multilinear interpolation of finite data on a rectilinear grid, at an observation that is
inside the grid range or outside by at most `lam` end-cell widths: the result computed in rounded
arithmetic is finite and differs from the result of the same evaluation in exact arithmetic (of
which C19–C29 say what it is) by at most a bound that depends on nothing but `N`, `u`, `lam`, the
largest value `M` and the underflow error. No condition number of the grid appears. -/
theorem C57_rectilinear (h : Rounds val fin u η Ω) (hcmp : ExactCompare val fin) (hu1 : u < 1)
    (e : Evaluator) (he : e.Fits N) (fma : Bool) (grids : Fin N → List T) (vals : List T)
    (hG : (Axes.rectilinear fun k => (grids k).map val).Valid 2 (vals.map val))
    (hgrid : ∀ k, ∀ a ∈ grids k, fin a ∧ 2 * |val a| ≤ Ω) (M : K)
    (hvals : ∀ v ∈ vals, fin v ∧ |val v| ≤ M)
    (x : Fin N → T) (hx : ∀ k, fin (x k) ∧ 2 * |val (x k)| ≤ Ω)
    (lam : K) (hlam : 0 ≤ lam)
    (hnear : ∀ k, NearRange (grids k).length (fun i => ((grids k).map val).getD i 0) lam
      (val (x k)))
    (L0 L : K) (hL0 : L0 = 1 + 2 * lam) (hL : L = L0 + 2 * (weightCost u * L0 + η))
    (hΩw : L0 * (1 + weightCost u) ≤ Ω)
    (hΩ : 2 * (1 + u) ^ 2 * (L * blendSize u η L M (N - 1)) + η ≤ Ω) :
    ∃ r y, multilinearRectilinearAt e fma grids vals x = .ok r ∧ fin r ∧
      multilinearAt e fma (.rectilinear fun k => (grids k).map val) (vals.map val)
        (fun k => val (x k)) = .ok y ∧
      |val r - y| ≤ blendError u η L M N + (L ^ N - L0 ^ N) * M := by
  have hu := h.u_nonneg
  have hη := h.η_nonneg
  have hτ := weightCost_nonneg hu hu1
  have hlen : ∀ k, 2 ≤ (grids k).length := fun k => by
    have := hG.big k; simpa [Axes.size] using this
  have hnode : ∀ (k : Fin N) (i : Nat), i < (grids k).length →
      ((grids k).map val).getD i 0 = val ((grids k).getD i zero) := fun k i hi => by
    rw [List.getD_eq_getElem _ _ (by simpa using hi), List.getElem_map,
      List.getD_eq_getElem _ _ hi]
  have hincr : ∀ k, Incr ((grids k).map val).length (fun i => ((grids k).map val).getD i 0) :=
    fun k i hi => hG.increasing k i hi
  have hincr' : ∀ k, Incr (grids k).length (fun i => ((grids k).map val).getD i 0) := fun k => by
    have := hincr k; rwa [List.length_map] at this
  have hmem : ∀ (k : Fin N) (i : Nat) (hi : i < (grids k).length),
      fin ((grids k).getD i zero) ∧ 2 * |val ((grids k).getD i zero)| ≤ Ω := fun k i hi => by
    rw [List.getD_eq_getElem _ _ hi]; exact hgrid k _ (List.getElem_mem hi)
  -- the float grid is accepted
  have hvlen : vals.length = ∏ k, (grids k).length := by
    have := hG.len; simpa [Axes.size] using this
  have hslice : IsSlice vals := by
    have := hG.slice; rw [isSlice_iff] at this ⊢; simpa using this
  have hacc : RectilinearAccepted 2 grids vals := by
    refine ⟨hslice, hvlen, hlen, fun k => ?_⟩
    have h2 := hlen k
    have h01 := hincr' k 0 (by omega)
    simp only [hnode k 0 (by omega), hnode k (0 + 1) (by omega)] at h01
    have := (hcmp _ _ (hmem k 0 (by omega)).1 (hmem k (0 + 1) (by omega)).1).2 h01
    match hgk : grids k with
    | [] => rw [hgk] at h2; simp at h2
    | [_] => rw [hgk] at h2; simp at h2
    | a :: b :: rest =>
      rw [hgk] at this
      exact ⟨a, b, rest, rfl, this⟩
  -- the selected cell contains the observation
  have hcell : ∀ k, InCell (grids k).length (fun i => ((grids k).map val).getD i 0) (val (x k))
      (linCell (grids k) (x k)) := by
    intro k
    have hsort : ∀ (i : Nat) (hi : i < (grids k).length),
        ((grids k)[i] <. x k) = true ↔ ((grids k).map val).getD i 0 < val (x k) := fun i hi => by
      have := (hmem k i hi).1
      rw [hnode k i hi]
      rw [List.getD_eq_getElem _ _ hi] at this ⊢
      exact hcmp _ _ this (hx k).1
    have hiff : ∀ (i : Nat) (hi : i < (grids k).length),
        ((grids k).map val).getD i 0 < val (x k) ↔ i < cellsBelow (grids k) (x k) := by
      intro i hi
      rw [← hsort i hi]
      refine cellsBelow_iff (fun i j hij hj hlt => ?_) i hi
      rw [hsort j hj] at hlt
      rw [hsort i (by omega)]
      exact lt_of_le_of_lt ((hincr' k).le hij hj) hlt
    have hb := linCell_bound (hlen k) (x k)
    have hle := cellsBelow_le (grids k) (x k)
    refine ⟨by omega, ?_, ?_⟩
    · by_cases hc : cellsBelow (grids k) (x k) ≤ 1
      · left; unfold linCell; omega
      · right
        exact ((hiff _ (by omega)).2 (by unfold linCell; omega)).le
    · by_cases hc : (grids k).length ≤ cellsBelow (grids k) (x k) + 1
      · left; unfold linCell; omega
      · right
        refine not_lt.1 fun hlt => ?_
        have := (hiff _ (by omega)).1 hlt
        unfold linCell at this
        omega
  -- the weights
  have hwt := fun k => abs_weight_nearRange hlam
    (weight_nearRange (hincr' k) hlam (hcell k) (hnear k))
  have hw : ∀ k, fin (cellPos (fun i => (grids k).getD i zero) (linCell (grids k) (x k)) (x k)) ∧
      |val (cellPos (fun i => (grids k).getD i zero) (linCell (grids k) (x k)) (x k)) -
        (val (x k) - ((grids k).map val).getD (linCell (grids k) (x k)) 0) /
          (((grids k).map val).getD (linCell (grids k) (x k) + 1) 0 -
            ((grids k).map val).getD (linCell (grids k) (x k)) 0)| ≤ weightCost u * L0 + η := by
    intro k
    have hb := linCell_bound (hlen k) (x k)
    have h1 := hmem k (linCell (grids k) (x k)) (by omega)
    have h2 := hmem k (linCell (grids k) (x k) + 1) (by omega)
    have h3 := hincr' k (linCell (grids k) (x k)) (by omega)
    have h4 := (hwt k).2
    simp only [hnode k _ (show linCell (grids k) (x k) < _ by omega),
      hnode k _ (show linCell (grids k) (x k) + 1 < _ by omega)] at h3 h4 ⊢
    have hL0' : 1 + lam ≤ L0 := by rw [hL0]; linarith
    have := rounds_weight h hu1 (hx k).1 h1.1 h2.1 h3
      (by have := abs_sub (val (x k)) (val ((grids k).getD (linCell (grids k) (x k)) zero))
          have := (hx k).2; linarith [h1.2])
      (by have := abs_sub (val ((grids k).getD (linCell (grids k) (x k) + 1) zero))
            (val ((grids k).getD (linCell (grids k) (x k)) zero))
          linarith [h1.2, h2.2])
      (h4.trans hL0') hΩw
    refine ⟨this.1, this.2.trans ?_⟩
    have : weightCost u * |(val (x k) - val ((grids k).getD (linCell (grids k) (x k)) zero)) /
        (val ((grids k).getD (linCell (grids k) (x k) + 1) zero) -
          val ((grids k).getD (linCell (grids k) (x k)) zero))| ≤ weightCost u * L0 := by
      gcongr; exact h4.trans hL0'
    linarith
  have hL1 : 1 ≤ L0 := by rw [hL0]; linarith
  have hLL : L0 ≤ L := by
    have : 0 ≤ weightCost u * L0 := by positivity
    rw [hL]; linarith
  -- the data
  set g := valAt zero (fun k => (grids k).length) vals with hgdef
  have hs := samples_valAt zero (fun k => (grids k).length) vals hvlen
  rw [← hgdef] at hs
  have hgM : ∀ loc : Fin N → Nat, (∀ k, loc k = linCell (grids k) (x k) ∨
      loc k = linCell (grids k) (x k) + 1) → fin (g loc) ∧ |val (g loc)| ≤ M := fun loc hl =>
    hvals _ (List.mem_of_getElem? (hs loc fun k => by
      have := linCell_bound (hlen k) (x k)
      show loc k < (grids k).length
      rcases hl k with h | h <;> omega))
  have hM : 0 ≤ M := (abs_nonneg _).trans (hgM (fun k => linCell (grids k) (x k)) fun k => .inl rfl).2
  have hsize : (Axes.rectilinear fun k => (grids k).map val).size = fun k => (grids k).length := by
    funext k; simp [Axes.size]
  have hs' : Samples (Axes.rectilinear fun k => (grids k).map val).size (vals.map val)
      (fun loc => val (g loc)) := by
    rw [hsize]
    intro loc hl
    rw [List.getElem?_map, hs loc hl]; rfl
  have hex := multilinearAt_eq e he fma (.rectilinear fun k => (grids k).map val) (vals.map val) hG
    _ hs' (fun k => val (x k)) trivial (fun k => linCell (grids k) (x k))
    (fun k => by rw [hsize]; exact hcell k)
  have hb1 := blend_weights (L := L) hL1 hM
    (fun k => (val (x k) - ((grids k).map val).getD (linCell (grids k) (x k)) 0) /
          (((grids k).map val).getD (linCell (grids k) (x k) + 1) 0 -
            ((grids k).map val).getD (linCell (grids k) (x k)) 0))
    (fun k => val (cellPos (fun i => (grids k).getD i zero) (linCell (grids k) (x k)) (x k)))
    (fun k => linCell (grids k) (x k)) (fun loc => val (g loc))
    (fun k => by rw [hL0]; exact (hwt k).1)
    (fun k => by have := (hw k).2; rw [hL]; linarith)
    (fun loc hl => (hgM loc hl).2)
  have hb2 := rounds_blend h fma (hL1.trans hLL) hM
    (fun k => cellPos (fun i => (grids k).getD i zero) (linCell (grids k) (x k)) (x k))
    (fun k => linCell (grids k) (x k)) g (fun k => (hw k).1) (fun k => by
      have h1 := (hwt k).1
      have h2 := (hw k).2
      rw [← hL0] at h1
      have h3 := abs_add_le (1 - (val (x k) - ((grids k).map val).getD (linCell (grids k) (x k)) 0) /
          (((grids k).map val).getD (linCell (grids k) (x k) + 1) 0 -
            ((grids k).map val).getD (linCell (grids k) (x k)) 0))
          ((val (x k) - ((grids k).map val).getD (linCell (grids k) (x k)) 0) /
          (((grids k).map val).getD (linCell (grids k) (x k) + 1) 0 -
            ((grids k).map val).getD (linCell (grids k) (x k)) 0) -
          val (cellPos (fun i => (grids k).getD i zero) (linCell (grids k) (x k)) (x k)))
      have h4 := abs_add_le ((val (x k) - ((grids k).map val).getD (linCell (grids k) (x k)) 0) /
          (((grids k).map val).getD (linCell (grids k) (x k) + 1) 0 -
            ((grids k).map val).getD (linCell (grids k) (x k)) 0))
          (val (cellPos (fun i => (grids k).getD i zero) (linCell (grids k) (x k)) (x k)) -
          (val (x k) - ((grids k).map val).getD (linCell (grids k) (x k)) 0) /
          (((grids k).map val).getD (linCell (grids k) (x k) + 1) 0 -
            ((grids k).map val).getD (linCell (grids k) (x k)) 0))
      rw [sub_add_sub_cancel] at h3
      rw [add_sub_cancel] at h4
      rw [abs_sub_comm] at h2
      rw [abs_sub_comm (val (cellPos _ _ _))] at h4
      rw [hL]
      linarith) hgM hΩ
  refine ⟨_, _, ?_, hb2.1, hex, ?_⟩
  · rw [multilinearRectilinearAt_eq e he fma grids vals hslice x, hacc.check le_rfl, Res.ok_bind]
    rfl
  · have hpiece : axisByAxis (fun k f => linPiece ((Axes.rectilinear fun k =>
        (grids k).map val).node k) f (linCell (grids k) (x k)) (val (x k))) (fun loc => val (g loc)) =
        blend (fun k => (val (x k) - ((grids k).map val).getD (linCell (grids k) (x k)) 0) /
          (((grids k).map val).getD (linCell (grids k) (x k) + 1) 0 -
            ((grids k).map val).getD (linCell (grids k) (x k)) 0))
          (fun k => linCell (grids k) (x k)) (fun loc => val (g loc)) :=
      axisByAxis_congr_op _ _ _ fun k f => linPiece_weights f
    rw [hpiece]
    have h3 := hb2.2.2
    have h4 := hb1.2
    refine (abs_sub_le _ _ _).trans (add_le_add h3 h4)

/-- The bound of `C57_rectilinear` inside the grid range and without underflow: at most
`26 N u M`, as long as `26 N u ≤ 1`. -/
theorem C57_simple_bound (hu : 0 ≤ u) (M : K) (hM : 0 ≤ M) (hN0 : 0 < N) (hN : 26 * N * u ≤ 1)
    (L : K) (hL : L = 1 + 2 * (weightCost u * 1 + 0)) :
    blendError u 0 L M N + (L ^ N - 1 ^ N) * M ≤ 26 * N * u * M := by
  have hN1 : (1 : K) ≤ N := by exact_mod_cast hN0
  have hu26 : 26 * u ≤ 1 := by nlinarith
  have hα0 := blendCost_nonneg hu
  have hα : blendCost u ≤ 21 / 4 * u := by
    unfold blendCost
    nlinarith [mul_nonneg hu hu]
  have hτ0 := weightCost_nonneg hu (by linarith : u < 1)
  have hτ : weightCost u ≤ 79 / 25 * u := by
    unfold weightCost
    rw [div_le_iff₀ (by linarith)]
    nlinarith
  have e : blendError u 0 L M N + (L ^ N - 1 ^ N) * M = ((L * (1 + blendCost u)) ^ N - 1) * M := by
    unfold blendError; ring
  rw [e]
  refine mul_le_mul_of_nonneg_right ?_ hM
  have hβ : L * (1 + blendCost u) ≤ 1 + 13 * u := by
    rw [hL]
    have h1 : weightCost u * blendCost u ≤ 79 / 25 * u * (21 / 4 * u) := by gcongr
    nlinarith
  have hL0 : 0 ≤ L * (1 + blendCost u) := by
    have : 0 ≤ L := by rw [hL]; linarith
    positivity
  have key : ∀ n : Nat, n ≤ N → (1 + 13 * u) ^ n ≤ 1 + 2 * n * (13 * u) := by
    intro n
    induction n with
    | zero => intro _; simp
    | succ n ih =>
      intro hn
      have hnN : (n : K) ≤ N := by exact_mod_cast (Nat.le_of_succ_le hn)
      have h1 := ih (by omega)
      have h2 : 2 * (n : K) * (13 * u) ≤ 1 := by
        calc 2 * (n : K) * (13 * u) ≤ 2 * N * (13 * u) := by gcongr
          _ = 26 * N * u := by ring
          _ ≤ 1 := hN
      rw [pow_succ]
      push_cast
      nlinarith
  have h1 := key N le_rfl
  have h2 : (L * (1 + blendCost u)) ^ N ≤ (1 + 13 * u) ^ N := by gcongr
  linarith

end

/-! ### Concrete cases -/

section Examples
open ExtNum

/-- Floating-point numbers with 53 significant bits and exponents up to 1023 (rounding down, so the
unit roundoff is `2^-52`). -/
@[reducible] def bits53 : FloatOps (ExtNum ℚ) := bitOps 53 1023
attribute [local instance] bits53

/-- A 3×2 grid of floats. -/
def exFloatGrids : Fin 2 → List (ExtNum ℚ) := ![[fin 0, fin (1 / 8), fin 4], [fin 1, fin 3]]

/-- Values on `exFloatGrids`. -/
def exFloatVals : List (ExtNum ℚ) := [fin 2, fin 6, fin (-7), fin 16, fin 10, fin 3]

/-- Hypotheses of `C57_rectilinear` and of the corollary are satisfied: at a point one quarter of an
end cell outside on the first axis, the result is correct to `10^-12`. -/
example : ∃ r y, multilinearRectilinearAt .flat true exFloatGrids exFloatVals
      ![fin (-1 / 32), fin (5 / 3)] = .ok r ∧
    multilinearAt .flat true (.rectilinear fun k => (exFloatGrids k).map value)
      (exFloatVals.map value) ![-1 / 32, 5 / 3] = .ok y ∧ |value r - y| ≤ 1 / 10 ^ 12 := by
  obtain ⟨r, y, h1, -, h2, h3⟩ := C57_rectilinear (bitOps_rounds 53 1023) (bitOps_compare 53 1023)
    (by norm_num) .flat (by decide : (0 : Nat) < 2) true exFloatGrids exFloatVals
    (valid_of_check (by decide +kernel))
    (by decide +kernel) 16 (by decide +kernel) ![fin (-1 / 32), fin (5 / 3)] (by decide +kernel)
    (1 / 4) (by norm_num) (by unfold NearRange; decide +kernel)
    _ _ rfl rfl (by unfold weightCost; decide +kernel)
    (by unfold blendSize weightCost blendCost; decide +kernel)
  refine ⟨r, y, h1, ?_, h3.trans ?_⟩
  · rw [← h2]
    congr 1
    funext k
    fin_cases k <;> rfl
  · norm_num [blendError, blendCost, weightCost]

/-- Hypotheses of `C53_rectilinear`: accepted data, and at the point `(1, 5/3)` in cell `(1, 0)` the
computed weights are finite and between 0 and 1. -/
example : RectilinearAccepted 2 exFloatGrids exFloatVals ∧
    ((fin 1 : ExtNum ℚ) -. fin (1 / 8)) /. (fin 4 -. fin (1 / 8)) =
      fin (8135534810733799 / 2 ^ 55) ∧
    ((fin (5 / 3) : ExtNum ℚ) -. fin 1) /. (fin 3 -. fin 1) = fin (6004799503160661 / 2 ^ 54) ∧
    2 * (1 + 2 / 2 ^ 53) ^ 2 * (1 * blendSize (2 / 2 ^ 53) 0 1 16 1) + 0 ≤ (2 ^ 1023 : ℚ) := by
  refine ⟨⟨by unfold IsSlice; decide, by decide, by decide, fun k => ?_⟩, ?_, ?_, ?_⟩
  · fin_cases k
    · exact ⟨_, _, _, rfl, by decide +kernel⟩
    · exact ⟨_, _, _, rfl, by decide +kernel⟩
  · decide +kernel
  · decide +kernel
  · unfold blendSize blendCost; decide +kernel

/-- Hypotheses of `C53_regular`: accepted data and an `Ok` result, close to the exact one. -/
example : RegularAccepted 2 ![3, 2] ![(fin (1 / 10) : ExtNum ℚ), fin 2] exFloatVals ∧
    multilinearRegularAt .flat false ![3, 2] ![fin 0, fin 1] ![fin (1 / 10), fin 2] exFloatVals
      ![fin (1 / 7), fin (5 / 3)] = .ok (fin (4128299658422953 / 2 ^ 50)) :=
  ⟨⟨by unfold IsSlice; decide, by decide, by decide, by decide +kernel⟩, by decide +kernel⟩

end Examples
end Interpn
