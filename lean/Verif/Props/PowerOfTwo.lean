import Verif.Lemmas.PowerOfTwo
import Verif.Lemmas.PythonCall
import Verif.Lemmas.BatchTransfer
import Verif.Props.EntryPoints
import Verif.Props.Bounds

/-! C99: measuring the coordinates in a unit that differs by a power of two does not change a bit of
the result. -/

set_option autoImplicit false
set_option exponentiation.threshold 1100

namespace Interpn
open FloatOps Ieee

section
variable {f : Format} {N : Nat} (k : Fin N → Nat) (vals : List (Ieee f))

/-- C99, multilinear interpolation on rectilinear grids. `grids'` and `x'` are `grids` and `x` with
axis `j` multiplied by `2^(k j)`. The call ends in the same way, with the same result. -/
theorem C99_multilinear_rectilinear (e : Evaluator) (he : e.Fits N) (fma : Bool)
    {grids grids' : Fin N → List (Ieee f)} {x x' : Fin N → Ieee f} (hs : IsSlice vals)
    (hg : ∀ j, List.Forall₂ (ScaledBy (k j)) (grids j) (grids' j))
    (hx : ∀ j, ScaledBy (k j) (x j) (x' j))
    (hb : ∀ j, ∀ a ∈ grids' j, |val a| ≤ f.omega / 2) (hbx : ∀ j, |val (x' j)| ≤ f.omega / 2) :
    multilinearRectilinearAt e fma grids' vals x' = multilinearRectilinearAt e fma grids vals x := by
  rw [multilinearRectilinearAt_eq e he fma grids vals hs,
    multilinearRectilinearAt_eq e he fma grids' vals hs, checkRectilinear_scaled _ _ _ hg]
  have e1 : (fun j => (grids' j).length) = fun j => (grids j).length :=
    funext fun j => (hg j).length_eq.symm
  have e2 : (fun j => linRule fma (grids' j) (x' j)) = fun j => linRule fma (grids j) (x j) :=
    funext fun j => linRule_scaled (hg j) (hx j) (hb j) (hbx j) fma
  rw [e1, e2]

/-- C99, multicubic interpolation on rectilinear grids. -/
theorem C99_multicubic_rectilinear (e : Evaluator) (he : e.Fits N) (fma lin : Bool)
    {grids grids' : Fin N → List (Ieee f)} {x x' : Fin N → Ieee f} (hs : IsSlice vals)
    (hg : ∀ j, List.Forall₂ (ScaledBy (k j)) (grids j) (grids' j))
    (hx : ∀ j, ScaledBy (k j) (x j) (x' j))
    (hb : ∀ j, ∀ a ∈ grids' j, |val a| ≤ f.omega / 2) (hbx : ∀ j, |val (x' j)| ≤ f.omega / 2) :
    multicubicRectilinearAt e fma grids' vals lin x' =
      multicubicRectilinearAt e fma grids vals lin x := by
  rw [multicubicRectilinearAt_eq e he fma grids vals lin hs,
    multicubicRectilinearAt_eq e he fma grids' vals lin hs, checkRectilinear_scaled _ _ _ hg]
  have e1 : (fun j => (grids' j).length) = fun j => (grids j).length :=
    funext fun j => (hg j).length_eq.symm
  have e2 : (fun j => cubRectRule fma (e.fmaBdry fma) (e.fmaBdry fma) lin (grids' j) (x' j)) =
      fun j => cubRectRule fma (e.fmaBdry fma) (e.fmaBdry fma) lin (grids j) (x j) :=
    funext fun j => cubRectRule_scaled (hg j) (hx j) (hb j) (hbx j) _ _ _ _
  rw [e1, e2]

/-- C99, nearest-neighbour interpolation on rectilinear grids. -/
theorem C99_nearest_rectilinear
    {grids grids' : Fin N → List (Ieee f)} {x x' : Fin N → Ieee f} (hs : IsSlice vals)
    (hg : ∀ j, List.Forall₂ (ScaledBy (k j)) (grids j) (grids' j))
    (hx : ∀ j, ScaledBy (k j) (x j) (x' j))
    (hb : ∀ j, ∀ a ∈ grids' j, |val a| ≤ f.omega / 2) (hbx : ∀ j, |val (x' j)| ≤ f.omega / 2) :
    nearestRectilinearAt grids' vals x' = nearestRectilinearAt grids vals x := by
  rw [nearestRectilinearAt_eq grids vals hs, nearestRectilinearAt_eq grids' vals hs,
    checkRectilinear_scaled _ _ _ hg]
  have e1 : (fun j => (grids' j).length) = fun j => (grids j).length :=
    funext fun j => (hg j).length_eq.symm
  have e2 : (fun j => nearRectAxis (grids' j) (x' j)) = fun j => nearRectAxis (grids j) (x j) :=
    funext fun j => nearRectAxis_scaled (hg j) (hx j) (hb j) (hbx j)
  rw [e1, e2]

/-- C99, multilinear interpolation on regular grids. -/
theorem C99_multilinear_regular (e : Evaluator) (he : e.Fits N) (fma : Bool) (dims : Fin N → Nat)
    {starts steps starts' steps' x x' : Fin N → Ieee f} (hs : IsSlice vals)
    (hst : ∀ j, ScaledBy (k j) (starts j) (starts' j))
    (hsp : ∀ j, ScaledBy (k j) (steps j) (steps' j)) (hx : ∀ j, ScaledBy (k j) (x j) (x' j))
    (b1 : ∀ j, |val (starts' j)| ≤ f.omega / 8) (b2 : ∀ j, |val (steps' j)| * dims j ≤ f.omega / 8)
    (b3 : ∀ j, |val (x' j)| ≤ f.omega / 8) :
    multilinearRegularAt e fma dims starts' steps' vals x' =
      multilinearRegularAt e fma dims starts steps vals x := by
  have hax := fun j => linRegAxis_scaled (dim := dims j) (e.fmaLoc fma) (hst j) (hsp j) (hx j) (b1 j)
    (b2 j) (b3 j)
  have ha := multilinearRegularAt_eq e he fma dims starts steps vals hs x
  have hb := multilinearRegularAt_eq e he fma dims starts' steps' vals hs x'
  rw [checkRegular_scaled _ _ _ _ hsp] at hb
  by_cases hn : ∃ j, linRegAxis (e.fmaLoc fma) (dims j) (starts j) (steps j) (x j) = none
  · obtain ⟨j, hj⟩ := hn
    rw [ha.2 ⟨j, hj⟩, hb.2 ⟨j, (hax j).trans hj⟩]
  · have : ∀ j, ∃ a, linRegAxis (e.fmaLoc fma) (dims j) (starts j) (steps j) (x j) = some a :=
      fun j => Option.ne_none_iff_exists'.1 fun hj => hn ⟨j, hj⟩
    choose a h using this
    rw [ha.1 a h, hb.1 a fun j => (hax j).trans (h j)]

/-- C99, nearest-neighbour interpolation on regular grids. -/
theorem C99_nearest_regular (fma : Bool) (dims : Fin N → Nat)
    {starts steps starts' steps' x x' : Fin N → Ieee f} (hs : IsSlice vals)
    (hst : ∀ j, ScaledBy (k j) (starts j) (starts' j))
    (hsp : ∀ j, ScaledBy (k j) (steps j) (steps' j)) (hx : ∀ j, ScaledBy (k j) (x j) (x' j))
    (b1 : ∀ j, |val (starts' j)| ≤ f.omega / 8) (b2 : ∀ j, |val (steps' j)| * dims j ≤ f.omega / 8)
    (b3 : ∀ j, |val (x' j)| ≤ f.omega / 8) :
    nearestRegularAt fma dims starts' steps' vals x' =
      nearestRegularAt fma dims starts steps vals x := by
  have hax : ∀ j, nearRegAxis fma (dims j) (starts' j) (steps' j) (x' j) =
      nearRegAxis fma (dims j) (starts j) (steps j) (x j) := fun j => by
    unfold nearRegAxis
    rw [linRegAxis_scaled (dim := dims j) fma (hst j) (hsp j) (hx j) (b1 j) (b2 j) (b3 j)]
  have ha := nearestRegularAt_eq fma dims starts steps vals hs x
  have hb := nearestRegularAt_eq fma dims starts' steps' vals hs x'
  rw [checkRegular_scaled _ _ _ _ hsp] at hb
  by_cases hn : ∃ j, nearRegAxis fma (dims j) (starts j) (steps j) (x j) = none
  · obtain ⟨j, hj⟩ := hn
    rw [ha.2 ⟨j, hj⟩, hb.2 ⟨j, (hax j).trans hj⟩]
  · have : ∀ j, ∃ a, nearRegAxis fma (dims j) (starts j) (steps j) (x j) = some a :=
      fun j => Option.ne_none_iff_exists'.1 fun hj => hn ⟨j, hj⟩
    choose a h using this
    rw [ha.1 a h, hb.1 a fun j => (hax j).trans (h j)]

/-- C99, multicubic interpolation on regular grids. -/
theorem C99_multicubic_regular (e : Evaluator) (he : e.Fits N) (fma lin : Bool) (dims : Fin N → Nat)
    {starts steps starts' steps' x x' : Fin N → Ieee f} (hs : IsSlice vals)
    (hst : ∀ j, ScaledBy (k j) (starts j) (starts' j))
    (hsp : ∀ j, ScaledBy (k j) (steps j) (steps' j)) (hx : ∀ j, ScaledBy (k j) (x j) (x' j))
    (b1 : ∀ j, |val (starts' j)| ≤ f.omega / 8) (b2 : ∀ j, |val (steps' j)| * dims j ≤ f.omega / 8)
    (b3 : ∀ j, |val (x' j)| ≤ f.omega / 8) :
    multicubicRegularAt e fma dims starts' steps' vals lin x' =
      multicubicRegularAt e fma dims starts steps vals lin x := by
  rw [multicubicRegularAt_eq e he fma (totalOfUsize f) dims starts steps vals lin hs,
    multicubicRegularAt_eq e he fma (totalOfUsize f) dims starts' steps' vals lin hs,
    checkRegular_scaled _ _ _ _ hsp]
  cases hc : checkRegular 4 "All grids must have at least four entries" (List.ofFn dims)
      (List.ofFn steps) vals with
  | err m => rfl
  | panic => rfl
  | ok u =>
    obtain ⟨h1, h2, h3, h4⟩ := checkRegular_eq_ok.1 hc
    have hgood : GoodVals 4 dims vals := goodVals_of h1 h2 h3
    simp only [Res.ok_bind]
    have hloop : (axisLoop N (0, Saturation.none, (zero : Ieee f)) fun i => do
          cubRegAxis (← aget dims i) (← aget starts' i) (← aget steps' i) (← aget x' i)) =
        (axisLoop N (0, Saturation.none, (zero : Ieee f)) fun i => do
          cubRegAxis (← aget dims i) (← aget starts i) (← aget steps i) (← aget x i)) := by
      congr 1
      funext i
      by_cases hi : i < N
      · have h := cubRegAxis_scaled (hgood.min ⟨i, hi⟩) (hst ⟨i, hi⟩) (hsp ⟨i, hi⟩) (hx ⟨i, hi⟩)
          (b1 ⟨i, hi⟩) (b2 ⟨i, hi⟩) (b3 ⟨i, hi⟩)
        have hag : ∀ {α : Type} (a : Fin N → α), aget a i = .ok (a ⟨i, hi⟩) := fun a =>
          aget_fin a ⟨i, hi⟩
        simp only [hag, Res.ok_bind]
        exact h
      · have : aget dims i = .panic := by unfold aget; rw [dif_neg hi]
        rw [this]
        rfl
    rw [hloop]


/-- How such data arise: every coordinate is multiplied by the float `2^k`, without overflow. -/
theorem scaledBy_mul (k : Nat) {a c : Ieee f} (hc : c = rnd f false (2 ^ k))
    (hk : (2 : ℚ) ^ k ≤ f.omega) (hb : |2 ^ k * val a| ≤ f.omega) : ScaledBy k a (a *. c) := by
  have hk2 : f.Representable (2 ^ k) := by
    refine f.repr_of_multiple (m := 1) (e := k) (by push_cast; simp) ?_ ?_ ?_
    · rw [abs_one]; exact one_le_pow₀ (by norm_num)
    · have := f.two_le_p
      have := f.p_le_emax
      unfold Format.emin; omega
    · rw [abs_of_pos (by positivity)]; exact hk
  have h1 := rnd_of_repr false hk2
  have hp : (0 : ℚ) < 2 ^ k := by positivity
  have hsgn : c = .fin false (2 ^ k) hk2 (fun _ => (decide_eq_false (not_lt.2 hp.le)).symm) := by
    subst hc
    unfold rnd
    simp only [f.roundQ_repr hk2]
    rw [dif_pos hk2.le_omega]
    congr 1
    rw [if_neg hp.ne']
    exact decide_eq_false (not_lt.2 hp.le)
  rw [hsgn]
  cases a with
  | nan => trivial
  | inf s =>
    show ScaledBy k (inf s) (if (2 : ℚ) ^ k = 0 then nan else inf (xor s false))
    rw [if_neg hp.ne', Bool.xor_false]
    exact rfl
  | fin s q hr hs =>
    have hm : ScaledBy k (rnd f s q) (rnd f s (2 ^ k * q)) :=
      rnd_scaled k s hr.multiple hb
    have e : rnd f s q = .fin s q hr hs := by
      unfold rnd
      simp only [f.roundQ_repr hr]
      rw [dif_pos hr.le_omega]
      congr 1
      split
      · rfl
      · next h => exact (hs h).symm
    rw [e] at hm
    show ScaledBy k _ (rnd f (xor s false) (q * 2 ^ k))
    rw [Bool.xor_false, mul_comm]
    exact hm


/-- C99, bounds check on regular grids: the same flags, if the tolerance is measured in the new unit
too. -/
theorem C99_check_bounds_regular (k : Nat) (dims : Fin N → Nat) (hd : ∀ j, 1 ≤ dims j)
    {starts steps starts' steps' : Fin N → Ieee f} {obs obs' : Fin N → List (Ieee f)}
    {atol atol' : Ieee f} (hst : ∀ j, ScaledBy k (starts j) (starts' j))
    (hsp : ∀ j, ScaledBy k (steps j) (steps' j))
    (hx : ∀ j, List.Forall₂ (ScaledBy k) (obs j) (obs' j)) (ha : ScaledBy k atol atol')
    (b1 : ∀ j, |val (starts' j)| ≤ f.omega / 8) (b2 : ∀ j, |val (steps' j)| * dims j ≤ f.omega / 8)
    (b3 : ∀ j, ∀ a ∈ obs' j, |val a| ≤ f.omega / 8) (out : List Bool) (hout : out.length = N) :
    checkBoundsRegular (List.ofFn dims) (List.ofFn starts') (List.ofFn steps') (List.ofFn obs')
        atol' out =
      checkBoundsRegular (List.ofFn dims) (List.ofFn starts) (List.ofFn steps) (List.ofFn obs)
        atol out := by
  have hΩ := f.omega_pos
  obtain ⟨fl, e, h⟩ := C38_flags dims starts steps obs atol out hout hd
    (fun j => rnd f false ((dims j - 1 : Nat) : ℚ)) fun _ => rfl
  obtain ⟨fl', e', h'⟩ := C38_flags dims starts' steps' obs' atol' out hout hd
    (fun j => rnd f false ((dims j - 1 : Nat) : ℚ)) fun _ => rfl
  have : fl' = fl := by
    funext j
    rw [Bool.eq_iff_iff, h, h']
    have hle : ((dims j - 1 : Nat) : ℚ) ≤ dims j := by exact_mod_cast Nat.sub_le _ _
    obtain ⟨n1, n2⟩ := (hst j).node false (hsp j) (count_rnd (dims j - 1)) (b1 j)
      ((mul_le_mul_of_nonneg_left hle (abs_nonneg _)).trans (b2 j))
    simp only [Bool.false_eq_true, if_false] at n1 n2
    obtain ⟨m1, m2⟩ := fmin_scaled (hst j) n1
    have c1 : |val (fmin (starts' j) (starts' j +. steps' j *. rnd f false ((dims j - 1 : Nat) : ℚ)))| ≤
        f.omega / 2 := by
      rcases m2.1 with h | h <;> rw [h]
      · have := b1 j; linarith
      · exact n2
    have c2 : |val (fmax (starts' j) (starts' j +. steps' j *. rnd f false ((dims j - 1 : Nat) : ℚ)))| ≤
        f.omega / 2 := by
      rcases m2.2.2 with h | h <;> rw [h]
      · have := b1 j; linarith
      · exact n2
    refine exists_scaled (hx j) fun a a' haa hm => ?_
    have b := b3 j a' hm
    rw [(haa.sub m1 ((abs_sub _ _).trans (by linarith))).le ha.neg,
      ha.le (haa.sub m2.2.1 ((abs_sub _ _).trans (by linarith)))]
  rw [e, e', this]

/-- C99, bounds check on rectilinear grids. -/
theorem C99_check_bounds_rectilinear (k : Nat) {grids grids' obs obs' : Fin N → List (Ieee f)}
    {atol atol' : Ieee f} (h0 : ∀ j, grids j ≠ [])
    (hg : ∀ j, List.Forall₂ (ScaledBy k) (grids j) (grids' j))
    (hx : ∀ j, List.Forall₂ (ScaledBy k) (obs j) (obs' j)) (ha : ScaledBy k atol atol')
    (hb : ∀ j, ∀ a ∈ grids' j, |val a| ≤ f.omega / 2)
    (hbx : ∀ j, ∀ a ∈ obs' j, |val a| ≤ f.omega / 2) (out : List Bool) (hout : out.length = N) :
    checkBoundsRectilinear (List.ofFn grids') (List.ofFn obs') atol' out =
      checkBoundsRectilinear (List.ofFn grids) (List.ofFn obs) atol out := by
  have hΩ := f.omega_pos
  have h0' : ∀ j, grids' j ≠ [] := fun j hn => h0 j (by
    have := (hg j).length_eq
    rw [hn] at this
    exact List.length_eq_zero_iff.1 this)
  obtain ⟨fl, e, h⟩ := C39_flags grids obs atol out hout h0
  obtain ⟨fl', e', h'⟩ := C39_flags grids' obs' atol' out hout h0'
  have : fl' = fl := by
    funext j
    rw [Bool.eq_iff_iff, h, h']
    have h1 : ScaledBy k ((grids j).head (h0 j)) ((grids' j).head (h0' j)) := by
      rw [List.head_eq_getElem, List.head_eq_getElem]
      exact (List.forall₂_iff_get.1 (hg j)).2 0 _ _
    have h2 : ScaledBy k ((grids j).getLast (h0 j)) ((grids' j).getLast (h0' j)) := by
      have hl := (hg j).length_eq
      rw [List.getLast_eq_getElem, List.getLast_eq_getElem]
      simp only [← hl]
      exact (List.forall₂_iff_get.1 (hg j)).2 _ _ _
    have b1 := hb j _ (List.head_mem (h0' j))
    have b2 := hb j _ (List.getLast_mem (h0' j))
    refine exists_scaled (hx j) fun a a' haa hm => ?_
    have b := hbx j a' hm
    rw [(haa.sub h1 ((abs_sub _ _).trans (by linarith))).le ha.neg,
      ha.le (haa.sub h2 ((abs_sub _ _).trans (by linarith)))]
  rw [e, e', this]

/-- C99, the 1-D interpolators that return a stored value, on rectilinear grids. -/
theorem C99_hold_rectilinear (k : Nat) (fma : Bool) {kind : Kind1D}
    (hk : kind = .left ∨ kind = .right ∨ kind = .nearest) {grid grid' : List (Ieee f)}
    {x x' : Ieee f} (hg : List.Forall₂ (ScaledBy k) grid grid') (hx : ScaledBy k x x')
    (hb : ∀ a ∈ grid', |val a| ≤ f.omega / 2) (hbx : |val x'| ≤ f.omega / 2) :
    rectilinear1DAt (kind.evalOne fma) grid' vals x' =
      rectilinear1DAt (kind.evalOne fma) grid vals x := by
  unfold rectilinear1DAt RectilinearGrid1D.new
  rw [← hg.length_eq]
  split
  · rfl
  simp only [Res.ok_bind]
  have h := hold_scaled fma hk hx (c := f.omega / 2) (by linarith)
    (rectilinear_sample_scaled (vals := vals) hg hx hb)
  rcases hk with rfl | rfl | rfl <;> exact h

/-- C99, the same on regular grids. -/
theorem C99_hold_regular (k : Nat) (fma : Bool) {kind : Kind1D}
    (hk : kind = .left ∨ kind = .right ∨ kind = .nearest) {start start' step step' x x' : Ieee f}
    (hv : IsSlice vals) (hs : ScaledBy k start start') (hp : ScaledBy k step step')
    (hx : ScaledBy k x x') (b1 : |val start'| ≤ f.omega / 8)
    (b2 : |val step'| * vals.length ≤ f.omega / 8) (b3 : |val x'| ≤ f.omega / 8) :
    regular1DAt (kind.evalOne fma) start' step' vals x' =
      regular1DAt (kind.evalOne fma) start step vals x := by
  have h := hold_scaled fma hk hx (c := f.omega * 7 / 8) (by linarith)
    (regular_sample_scaled hv hs hp hx b1 b2 b3)
  have e : ∀ (st sp y : Ieee f), regular1DAt (kind.evalOne fma) st sp vals y =
      kind.evalOne fma (fun _ => RegularGrid1D.new st sp vals >>= fun g => g.at y) y := by
    intro st sp y
    unfold regular1DAt
    rcases hk with rfl | rfl | rfl <;> cases RegularGrid1D.new st sp vals <;> rfl
  rw [e, e, h]

theorem uniformSpacing_scaled {k : Nat} {g g' : List (Ieee f)}
    (hg : List.Forall₂ (ScaledBy k) g g') (hb : ∀ a ∈ g', |val a| ≤ f.omega / 2) :
    UniformSpacing g' ↔ UniformSpacing g := by
  have hl := hg.length_eq
  have hd : ∀ i j (hi : i < g.length) (hj : j < g.length),
      ScaledBy k (g[i] -. g[j]) (g'[i]'(hl ▸ hi) -. g'[j]'(hl ▸ hj)) := by
    intro i j hi hj
    have h1 := hb _ (List.getElem_mem (hl ▸ hi : i < g'.length))
    have h2 := hb _ (List.getElem_mem (hl ▸ hj : j < g'.length))
    refine ScaledBy.sub ?_ ?_ ((abs_sub _ _).trans (by linarith))
    · exact (List.forall₂_iff_get.1 hg).2 i hi (hl ▸ hi)
    · exact (List.forall₂_iff_get.1 hg).2 j hj (hl ▸ hj)
  constructor
  · intro h i hi h1
    obtain ⟨h2, h3⟩ := h i (hl ▸ hi) (hl ▸ h1)
    have e1 := hd (i + 1) i hi (by omega)
    have e2 := hd 1 0 h1 (by omega)
    exact ⟨(e1.le e2) ▸ h2, (e2.le e1) ▸ h3⟩
  · intro h i hi h1
    obtain ⟨h2, h3⟩ := h i (hl ▸ hi) (hl ▸ h1)
    have e1 := hd (i + 1) i (hl ▸ hi) (by omega)
    have e2 := hd 1 0 (hl ▸ h1) (by omega)
    exact ⟨(e1.le e2).trans h2, (e2.le e1).trans h3⟩

/-- C99, the Python function `interpn`: the same routine is chosen and the same array is returned,
or the same exception raised. `grids'` and `obs'` are `grids` and `obs` with axis `j` multiplied by
`2^(k j)`. -/
theorem C99_python (fma : Bool) (dt : Dtype) (hdt : dt ≠ .other) (method : PyMethod)
    (lin assume : Bool) (atol atol' : Ieee f) (h1 : 1 ≤ N) (hN : N ≤ method.maxAxes)
    {grids grids' obs obs' : Fin N → List (Ieee f)}
    (hG : RectilinearAccepted method.minNodes grids vals)
    (hg : ∀ j, List.Forall₂ (ScaledBy (k j)) (grids j) (grids' j))
    (hx : ∀ j, List.Forall₂ (ScaledBy (k j)) (obs j) (obs' j))
    (hb : ∀ j, ∀ a ∈ grids' j, |val a| * (grids j).length ≤ f.omega / 32)
    (hbx : ∀ j, ∀ a ∈ obs' j, |val a| ≤ f.omega / 8) :
    pyInterpn fma dt (List.ofFn obs') (List.ofFn grids') vals method.name none lin assume false
        atol' =
      pyInterpn fma dt (List.ofFn obs) (List.ofFn grids) vals method.name none lin assume false
        atol := by
  have hΩ := f.omega_pos
  have h8 : N ≤ 8 := hN.trans (by cases method <;> decide)
  have hm2 : 2 ≤ method.minNodes := by cases method <;> decide
  have hlen : ∀ j, (grids' j).length = (grids j).length := fun j => (hg j).length_eq.symm
  have h2 : ∀ j, 2 ≤ (grids j).length := fun j => hm2.trans (hG.big j)
  have hb' : ∀ j, ∀ a ∈ grids' j, |val a| ≤ f.omega / 32 := fun j a ha => by
    have h3 : (1 : ℚ) ≤ (grids j).length := by exact_mod_cast (show 1 ≤ (grids j).length by
      have := h2 j; omega)
    have := mul_le_mul_of_nonneg_left h3 (abs_nonneg (val a))
    have := hb j a ha
    linarith
  have hb2 : ∀ j, ∀ a ∈ grids' j, |val a| ≤ f.omega / 2 := fun j a ha =>
    (hb' j a ha).trans (by linarith)
  have hstep : ∀ j, ScaledBy (k j) ((grids j).getD 1 zero -. (grids j).getD 0 zero)
      ((grids' j).getD 1 zero -. (grids' j).getD 0 zero) := fun j => width_scaled (hg j) (hb2 j) 1 0
  have hstart : ∀ j, ScaledBy (k j) ((grids j).getD 0 zero) ((grids' j).getD 0 zero) := fun j =>
    getD_scaled (hg j) 0
  have hbs : ∀ j, |val ((grids' j).getD 0 zero)| ≤ f.omega / 8 := fun j =>
    getD_bound (by linarith) (fun a ha => (hb' j a ha).trans (by linarith)) 0
  have hbp : ∀ j, |val ((grids' j).getD 1 zero -. (grids' j).getD 0 zero)| * (grids j).length ≤
      f.omega / 8 := fun j => by
    have e0 : ∀ i, |val ((grids' j).getD i zero)| * (grids j).length ≤ f.omega / 32 := fun i => by
      by_cases hi : i < (grids' j).length
      · rw [List.getD_eq_getElem _ _ hi]
        exact hb j _ (List.getElem_mem hi)
      · rw [List.getD_eq_default _ _ (by omega), (zero_eq (f := f)).2, abs_zero, zero_mul]
        linarith
    have h3 : |val ((grids' j).getD 1 zero -. (grids' j).getD 0 zero)| ≤
        5 / 4 * (|val ((grids' j).getD 1 zero)| + |val ((grids' j).getD 0 zero)|) := by
      have := abs_val_add_le_quarter (a := (grids' j).getD 1 zero) (b := Ieee.neg ((grids' j).getD 0 zero))
      rw [show val (Ieee.neg ((grids' j).getD 0 zero)) = -val ((grids' j).getD 0 zero) from
        val_neg _, abs_neg] at this
      exact this
    have h4 : (0 : ℚ) ≤ (grids j).length := by positivity
    have h5 := mul_le_mul_of_nonneg_right h3 h4
    have := e0 0
    have := e0 1
    have e : 5 / 4 * (|val ((grids' j).getD 1 zero)| + |val ((grids' j).getD 0 zero)|) *
        ((grids j).length : ℚ) = 5 / 4 * (|val ((grids' j).getD 1 zero)| * (grids j).length +
        |val ((grids' j).getD 0 zero)| * (grids j).length) := by ring
    linarith
  have hG' : RectilinearAccepted method.minNodes grids' vals := by
    refine ⟨hG.slice, by rw [hG.len]; exact Finset.prod_congr rfl fun j _ => (hlen j).symm,
      fun j => by rw [hlen j]; exact hG.big j, fun j => ?_⟩
    obtain ⟨a, b, rest, e, hab⟩ := hG.order j
    have := hg j
    rw [e] at this
    match hgj : grids' j, this with
    | a' :: b' :: rest', .cons ha (.cons hb _) =>
      exact ⟨a', b', rest', rfl, (ha.lt hb).trans hab⟩
  have hreg : ∀ {gs : Fin N → List (Ieee f)}, RectilinearAccepted method.minNodes gs vals →
      RegularAccepted method.minNodes (fun j => (gs j).length)
        (fun j => (gs j).getD 1 zero -. (gs j).getD 0 zero) vals := by
    intro gs h
    refine ⟨h.slice, h.len, h.big, fun j => ?_⟩
    obtain ⟨a, b, rest, e, hab⟩ := h.order j
    rw [e]
    exact (subDetectsOrder f a b).trans hab
  have hout : pyOut none (List.ofFn obs') = pyOut none (List.ofFn obs) := by
    obtain ⟨n, rfl⟩ : ∃ n, N = n + 1 := ⟨N - 1, by omega⟩
    rw [(C49_out (List.ofFn obs) (obs 0)).1 (by rw [List.ofFn_succ]; rfl),
      (C49_out (List.ofFn obs') (obs' 0)).1 (by rw [List.ofFn_succ]; rfl), (hx 0).length_eq]
  obtain ⟨out, hout2⟩ : ∃ out, pyOut none (List.ofFn obs) = .ok out := by
    obtain ⟨n, rfl⟩ : ∃ n, N = n + 1 := ⟨N - 1, by omega⟩
    exact ⟨_, (C49_out _ (obs 0)).1 (by rw [List.ofFn_succ]; rfl)⟩
  have hmem : ∀ {gs : Fin N → List (Ieee f)}, (∀ j, 2 ≤ (gs j).length) →
      ∀ g ∈ List.ofFn gs, 2 ≤ g.length := fun h g hg => by
    obtain ⟨j, rfl⟩ := List.mem_ofFn.1 hg
    exact h j
  have huni : ∀ {gs : Fin N → List (Ieee f)},
      (∀ g ∈ List.ofFn gs, UniformSpacing g) ↔ ∀ j, UniformSpacing (gs j) := fun {gs} =>
    ⟨fun h j => h _ (List.mem_ofFn.2 ⟨j, rfl⟩), fun h g hg => by
      obtain ⟨j, rfl⟩ := List.mem_ofFn.1 hg
      exact h j⟩
  have huu : (∀ g ∈ List.ofFn grids', UniformSpacing g) ↔ ∀ g ∈ List.ofFn grids, UniformSpacing g := by
    rw [huni, huni]
    exact forall_congr' fun j => uniformSpacing_scaled (hg j) (hb2 j)
  by_cases hr : assume = true ∨ ∀ g ∈ List.ofFn grids, UniformSpacing g
  · rw [C49_regular fma dt hdt method _ _ vals none out lin assume atol hout2
        (by rw [List.length_ofFn]; exact h8) (hmem h2) hr,
      C49_regular fma dt hdt method _ _ vals none out lin assume atol' (hout.trans hout2)
        (by rw [List.length_ofFn]; exact h8) (hmem fun j => (hlen j).symm ▸ h2 j)
        (hr.imp id huu.2)]
    simp only [List.map_ofFn]
    have hA := hreg hG
    have hA' := hreg hG'
    have hlen' : (fun j => (grids' j).length) = fun j => (grids j).length := funext hlen
    rw [hlen'] at hA'
    congr 1
    have e1 : (List.length ∘ grids') = fun j => (grids j).length := funext hlen
    rw [e1]
    cases method
    · refine (C10_C11_multilinear_regular_entry fma h1 h8 _ _ _ vals hA).transfer
        (C10_C11_multilinear_regular_entry fma h1 h8 _ _ _ vals hA') hx
        (fun pt pt' hp hm => ?_) out
      exact C99_multilinear_regular k vals _ (linearImpl_fits h1) fma _ hG.slice hstart hstep hp hbs
        hbp fun j => hbx j _ (hm j)
    · refine (C10_C11_nearest_regular_entry fma h1 hN _ _ _ vals hA).transfer
        (C10_C11_nearest_regular_entry fma h1 hN _ _ _ vals hA') hx
        (fun pt pt' hp hm => ?_) out
      exact C99_nearest_regular k vals fma _ hG.slice hstart hstep hp hbs
        hbp fun j => hbx j _ (hm j)
    · refine (C10_C12_multicubic_regular_entry fma h1 h8 _ _ _ vals lin hA).transfer
        (C10_C12_multicubic_regular_entry fma h1 h8 _ _ _ vals lin hA') hx
        (fun pt pt' hp hm => ?_) out
      exact C99_multicubic_regular k vals _ (cubicImpl_fits h1) fma lin _ hG.slice hstart hstep hp
        hbs hbp fun j => hbx j _ (hm j)
  · rw [C49_rectilinear fma dt hdt method _ _ vals none out lin assume atol hout2
        (by rw [List.length_ofFn]; exact h8) (by rw [List.length_ofFn]; exact h8) (hmem h2) hr,
      C49_rectilinear fma dt hdt method _ _ vals none out lin assume atol' (hout.trans hout2)
        (by rw [List.length_ofFn]; exact h8) (by rw [List.length_ofFn]; exact h8)
        (hmem fun j => (hlen j).symm ▸ h2 j) (fun h => hr (h.imp id huu.1))]
    congr 1
    have hbx2 : ∀ j, ∀ a ∈ obs' j, |val a| ≤ f.omega / 2 := fun j a ha =>
      (hbx j a ha).trans (by linarith)
    cases method
    · refine (C10_C11_multilinear_rectilinear_entry fma h1 h8 _ vals hG).transfer
        (C10_C11_multilinear_rectilinear_entry fma h1 h8 _ vals hG') hx
        (fun pt pt' hp hm => ?_) out
      exact C99_multilinear_rectilinear k vals _ (linearImpl_fits h1) fma hG.slice hg hp hb2
        fun j => hbx2 j _ (hm j)
    · refine (C10_C11_nearest_rectilinear_entry h1 hN _ vals hG).transfer
        (C10_C11_nearest_rectilinear_entry h1 hN _ vals hG') hx
        (fun pt pt' hp hm => ?_) out
      exact C99_nearest_rectilinear k vals hG.slice hg hp hb2
        fun j => hbx2 j _ (hm j)
    · refine (C10_C12_multicubic_rectilinear_entry fma h1 h8 _ vals lin hG).transfer
        (C10_C12_multicubic_rectilinear_entry fma h1 h8 _ vals lin hG') hx
        (fun pt pt' hp hm => ?_) out
      exact C99_multicubic_rectilinear k vals _ (cubicImpl_fits h1) fma lin hG.slice hg hp
        hb2 fun j => hbx2 j _ (hm j)

end

section Examples

/-- Data of three axes in one unit, the middle one in subnormal numbers. -/
def unitGrids : Fin 3 → List F64 :=
  ![[q64 0, q64 (1 / 10), q64 4], [q64 (-1 / 2 ^ 1074), q64 (2 / 2 ^ 1074)], [q64 1, q64 3]]
/-- The same in other units. -/
def unitGrids' : Fin 3 → List F64 := fun j =>
  (unitGrids j).map fun a => a *. q64 (2 ^ (![10, 1000, 0] : Fin 3 → Nat) j)
/-- Values. -/
def unitVals : List F64 := ([2, 6, -7, 16, 10, 1 / 3, 5, 1, -2, 8, 0, 7] : List ℚ).map q64
/-- A point. -/
def unitPoint : Fin 3 → F64 := ![q64 (3 / 10), q64 (1 / 2 ^ 1074), q64 (7 / 3)]
/-- The same in other units. -/
def unitPoint' : Fin 3 → F64 := fun j => unitPoint j *. q64 (2 ^ (![10, 1000, 0] : Fin 3 → Nat) j)

theorem forall₂_map_right {k : Nat} {g : F64 → F64} : ∀ l : List F64,
    (l.all fun a => decide (ScaledBy k a (g a))) = true → List.Forall₂ (ScaledBy k) l (l.map g)
  | [], _ => .nil
  | a :: l, h => by
    simp only [List.all_cons, Bool.and_eq_true, decide_eq_true_eq] at h
    exact .cons h.1 (forall₂_map_right l h.2)

theorem unit_scaled : (∀ j, List.Forall₂ (ScaledBy ((![10, 1000, 0] : Fin 3 → Nat) j)) (unitGrids j)
      (unitGrids' j)) ∧
    (∀ j, ScaledBy ((![10, 1000, 0] : Fin 3 → Nat) j) (unitPoint j) (unitPoint' j)) ∧
    (∀ j, ∀ a ∈ unitGrids' j, |val a| ≤ Format.binary64.omega / 2) ∧
    (∀ j, |val (unitPoint' j)| ≤ Format.binary64.omega / 2) :=
  ⟨fun j => forall₂_map_right _ (by revert j; decide +kernel), by decide +kernel, by decide +kernel,
    by decide +kernel⟩

/-- The hypotheses of `C99_multilinear_rectilinear` are met by these data, and the common result is
an ordinary number. -/
example : multilinearRectilinearAt .flat true unitGrids' unitVals unitPoint' =
    multilinearRectilinearAt .flat true unitGrids unitVals unitPoint :=
  C99_multilinear_rectilinear ![10, 1000, 0] unitVals .flat (show 0 < 3 by decide) true
    ((isSlice_iff _).2 (by decide)) unit_scaled.1 unit_scaled.2.1 unit_scaled.2.2.1
    unit_scaled.2.2.2

example : nearestRectilinearAt unitGrids' unitVals unitPoint' =
    nearestRectilinearAt unitGrids unitVals unitPoint ∧
    nearestRectilinearAt unitGrids unitVals unitPoint = .ok (q64 1) :=
  ⟨C99_nearest_rectilinear ![10, 1000, 0] unitVals
    ((isSlice_iff _).2 (by decide)) unit_scaled.1 unit_scaled.2.1 unit_scaled.2.2.1
    unit_scaled.2.2.2, by decide +kernel⟩

/-- A unit that is not a power of two changes the result in general. -/
example : multilinearRectilinearAt .flat true ![[q64 0, q64 3]] [q64 0, q64 1] ![q64 (1 / 10) *. q64 3] ≠
    multilinearRectilinearAt .flat true ![[q64 0, q64 1]] [q64 0, q64 1] ![q64 (1 / 10)] := by
  decide +kernel

/-- The bounds are needed: here the width of the cell overflows in the new unit. -/
example : multilinearRectilinearAt .flat true ![[q64 (-2 ^ 1023), q64 (2 ^ 1023)]] [q64 0, q64 1]
      ![q64 0] = .ok (q64 0) ∧
    multilinearRectilinearAt .flat true ![[q64 (-2 ^ 1022), q64 (2 ^ 1022)]] [q64 0, q64 1]
      ![q64 0] = .ok (q64 (1 / 2)) := by
  decide +kernel

/-- The 1-D linear interpolators are not among the theorems, and rightly so: they divide the
difference of the values by that of the coordinates first, and this quotient underflows in one unit
and not in the other. -/
example : rectilinear1DAt (Kind1D.linear.evalOne true) [q64 0, q64 1] [q64 0, q64 (1 / 2 ^ 1074)]
      (q64 1) = .ok (q64 (1 / 2 ^ 1074)) ∧
    rectilinear1DAt (Kind1D.linear.evalOne true) [q64 0, q64 2] [q64 0, q64 (1 / 2 ^ 1074)]
      (q64 2) = .ok (q64 0) := by
  decide +kernel

/-- The other theorems: a grid of decimal numbers and one in units of `2^-1074`. -/
def unitGrids2 : Fin 2 → List F64 :=
  ![[q64 0, q64 (1 / 10), q64 4, q64 (17 / 3)], [q64 0, q64 (3 / 2 ^ 1074), q64 (6 / 2 ^ 1074),
    q64 (9 / 2 ^ 1074)]]
/-- In other units. -/
def unitGrids2' : Fin 2 → List F64 := fun j =>
  (unitGrids2 j).map fun a => a *. q64 (2 ^ (![5, 1000] : Fin 2 → Nat) j)
/-- Observations. -/
def unitObs2 : Fin 2 → List F64 :=
  ![[q64 (3 / 10), q64 (-2), .nan], [q64 (1 / 2 ^ 1074), q64 (4 / 2 ^ 1074), .inf true]]
/-- In other units. -/
def unitObs2' : Fin 2 → List F64 := fun j =>
  (unitObs2 j).map fun a => a *. q64 (2 ^ (![5, 1000] : Fin 2 → Nat) j)
/-- Values. -/
def unitVals2 : List F64 :=
  ([2, 6, -7, 16, 10, 1 / 3, 5, 1, -2, 8, 0, 7, 1 / 10, 4, -9, 6] : List ℚ).map q64

/-- Python, all three methods, with and without detection. -/
example (method : PyMethod) (lin assume : Bool) :
    pyInterpn true .float64 (List.ofFn unitObs2') (List.ofFn unitGrids2') unitVals2 method.name none
        lin assume false (q64 0) =
      pyInterpn true .float64 (List.ofFn unitObs2) (List.ofFn unitGrids2) unitVals2 method.name none
        lin assume false (q64 0) := by
  refine C99_python ![5, 1000] unitVals2 true .float64 (by decide) method lin assume (q64 0) (q64 0)
    (by decide) (by cases method <;> decide) ⟨(isSlice_iff _).2 (by decide), by decide, ?_, ?_⟩
    (fun j => forall₂_map_right _ (by revert j; decide +kernel))
    (fun j => forall₂_map_right _ (by revert j; decide +kernel)) (by decide +kernel)
    (by decide +kernel)
  · intro j
    have : (unitGrids2 j).length = 4 := by revert j; decide
    rw [this]
    cases method <;> decide
  · intro j
    fin_cases j
    · exact ⟨_, _, _, rfl, by decide +kernel⟩
    · exact ⟨_, _, _, rfl, by decide +kernel⟩

/-- The second axis is evenly spaced, the first is not: the rectilinear routine is used, and the
first two results are not special. -/
example : ((pyInterpn true .float64 [[q64 (3 / 10)], [q64 (1 / 2 ^ 1074)]] (List.ofFn unitGrids2)
    unitVals2 "linear" none true false false (q64 0)).map fun r =>
      (r.1.regular, r.2.all fun v => decide (Finite v))) = .ok (false, true) := by
  decide +kernel

theorem unit2_scaled : (∀ j, ScaledBy 70 ((![q64 0, q64 1] : Fin 2 → F64) j)
      ((![q64 0, q64 (2 ^ 70)] : Fin 2 → F64) j)) ∧
    (∀ j, ScaledBy 70 ((![q64 (1 / 10), q64 3] : Fin 2 → F64) j)
      ((![q64 (2 ^ 70 / 10), q64 (3 * 2 ^ 70)] : Fin 2 → F64) j)) ∧
    (∀ j, ScaledBy 70 ((![q64 (1 / 7), q64 5] : Fin 2 → F64) j)
      ((![q64 (2 ^ 70 / 7), q64 (5 * 2 ^ 70)] : Fin 2 → F64) j)) := by decide +kernel

/-- Regular grids: the grid `0, 0.1, 0.2, 0.3` × `1, 4, 7, 10`, in units of `1` and of `2^70`. -/
example (e : Evaluator) (he : e.Fits 2) (lin : Bool) :
    multicubicRegularAt e true (fun _ => 4) ![q64 0, q64 (2 ^ 70)]
        ![q64 (2 ^ 70 / 10), q64 (3 * 2 ^ 70)] unitVals2 lin ![q64 (2 ^ 70 / 7), q64 (5 * 2 ^ 70)] =
      multicubicRegularAt e true (fun _ => 4) ![q64 0, q64 1] ![q64 (1 / 10), q64 3] unitVals2 lin
        ![q64 (1 / 7), q64 5] ∧
    multilinearRegularAt e true (fun _ => 4) ![q64 0, q64 (2 ^ 70)]
        ![q64 (2 ^ 70 / 10), q64 (3 * 2 ^ 70)] unitVals2 ![q64 (2 ^ 70 / 7), q64 (5 * 2 ^ 70)] =
      multilinearRegularAt e true (fun _ => 4) ![q64 0, q64 1] ![q64 (1 / 10), q64 3] unitVals2
        ![q64 (1 / 7), q64 5] ∧
    nearestRegularAt true (fun _ => 4) ![q64 0, q64 (2 ^ 70)]
        ![q64 (2 ^ 70 / 10), q64 (3 * 2 ^ 70)] unitVals2 ![q64 (2 ^ 70 / 7), q64 (5 * 2 ^ 70)] =
      nearestRegularAt true (fun _ => 4) ![q64 0, q64 1] ![q64 (1 / 10), q64 3] unitVals2
        ![q64 (1 / 7), q64 5] :=
  have hs : IsSlice unitVals2 := (isSlice_iff _).2 (by decide)
  ⟨C99_multicubic_regular (fun _ => 70) unitVals2 e he true lin _ hs unit2_scaled.1 unit2_scaled.2.1
      unit2_scaled.2.2 (by decide +kernel) (by decide +kernel) (by decide +kernel),
    C99_multilinear_regular (fun _ => 70) unitVals2 e he true _ hs unit2_scaled.1 unit2_scaled.2.1
      unit2_scaled.2.2 (by decide +kernel) (by decide +kernel) (by decide +kernel),
    C99_nearest_regular (fun _ => 70) unitVals2 true _ hs unit2_scaled.1 unit2_scaled.2.1
      unit2_scaled.2.2 (by decide +kernel) (by decide +kernel) (by decide +kernel)⟩

/-- Multicubic interpolation on the rectilinear grid above. -/
example (e : Evaluator) (he : e.Fits 2) (lin : Bool) :
    multicubicRectilinearAt e true unitGrids2' unitVals2 lin
        ![q64 (3 / 10) *. q64 (2 ^ 5), q64 (4 / 2 ^ 1074) *. q64 (2 ^ 1000)] =
      multicubicRectilinearAt e true unitGrids2 unitVals2 lin ![q64 (3 / 10), q64 (4 / 2 ^ 1074)] :=
  C99_multicubic_rectilinear ![5, 1000] unitVals2 e he true lin ((isSlice_iff _).2 (by decide))
    (fun j => forall₂_map_right _ (by revert j; decide +kernel)) (by decide +kernel)
    (by decide +kernel) (by decide +kernel)

/-- The 1-D interpolators that return a stored value. -/
example (kind : Kind1D) (hk : kind = .left ∨ kind = .right ∨ kind = .nearest) :
    rectilinear1DAt (kind.evalOne true) ((unitGrids2 0).map (· *. q64 (2 ^ 5))) unitVals2
        (q64 (3 / 10) *. q64 (2 ^ 5)) =
      rectilinear1DAt (kind.evalOne true) (unitGrids2 0) unitVals2 (q64 (3 / 10)) ∧
    regular1DAt (kind.evalOne true) (q64 (2 ^ 70)) (q64 (2 ^ 70 / 10)) unitVals2 (q64 (2 ^ 70 / 7)) =
      regular1DAt (kind.evalOne true) (q64 1) (q64 (1 / 10)) unitVals2 (q64 (1 / 7)) :=
  ⟨C99_hold_rectilinear unitVals2 5 true hk (forall₂_map_right _ (by decide +kernel))
      (by decide +kernel) (by decide +kernel) (by decide +kernel),
    C99_hold_regular unitVals2 70 true hk ((isSlice_iff _).2 (by decide)) (by decide +kernel)
      (by decide +kernel) (by decide +kernel) (by decide +kernel) (by decide +kernel)
      (by decide +kernel)⟩

/-- The bounds checks, with a tolerance in the new unit. -/
example : checkBoundsRectilinear (List.ofFn fun j => (unitGrids2 j).map (· *. q64 (2 ^ 5)))
        (List.ofFn fun j => (unitObs2 j).map (· *. q64 (2 ^ 5))) (q64 (2 ^ 5 / 10)) [false, false] =
      checkBoundsRectilinear (List.ofFn unitGrids2) (List.ofFn unitObs2) (q64 (1 / 10))
        [false, false] ∧
    checkBoundsRectilinear (List.ofFn unitGrids2) (List.ofFn unitObs2) (q64 (1 / 10))
        [false, false] = (.ok (), [true, true]) :=
  ⟨C99_check_bounds_rectilinear 5 (by decide +kernel)
    (fun j => forall₂_map_right _ (by revert j; decide +kernel))
    (fun j => forall₂_map_right _ (by revert j; decide +kernel)) (by decide +kernel)
    (by decide +kernel) (by decide +kernel) _ rfl, by decide +kernel⟩

example : checkBoundsRegular [4, 4] [q64 0, q64 (2 ^ 70)] [q64 (2 ^ 70 / 10), q64 (3 * 2 ^ 70)]
        [[q64 (2 ^ 70 / 7)], [q64 (12 * 2 ^ 70)]] (q64 (2 ^ 70)) [false, false] =
      checkBoundsRegular [4, 4] [q64 0, q64 1] [q64 (1 / 10), q64 3]
        [[q64 (1 / 7)], [q64 12]] (q64 1) [false, false] ∧
    checkBoundsRegular [4, 4] [q64 0, q64 1] [q64 (1 / 10), q64 3]
        [[q64 (1 / 7)], [q64 12]] (q64 1) [false, false] = (.ok (), [false, true]) := by
  refine ⟨?_, by decide +kernel⟩
  have h := C99_check_bounds_regular (N := 2) (f := Format.binary64) 70 (fun _ => 4) (by decide)
    (starts := ![q64 0, q64 1]) (starts' := ![q64 0, q64 (2 ^ 70)]) (steps := ![q64 (1 / 10), q64 3])
    (steps' := ![q64 (2 ^ 70 / 10), q64 (3 * 2 ^ 70)]) (obs := ![[q64 (1 / 7)], [q64 12]])
    (obs' := ![[q64 (2 ^ 70 / 7)], [q64 (12 * 2 ^ 70)]]) (atol := q64 1) (atol' := q64 (2 ^ 70))
    unit2_scaled.1 unit2_scaled.2.1
    (by intro j; fin_cases j <;> exact .cons (by decide +kernel) .nil) (by decide +kernel)
    (by decide +kernel) (by decide +kernel) (by decide +kernel) [false, false] rfl
  exact h

/-- The restriction of C99 to the interpolators that do not form a slope first is needed: 1-D linear
interpolation of `0, 2^-1000` at the nodes `0, 1` gives `2^-1001` half-way. With the coordinates
multiplied by `2^100` the slope `2^-1100` underflows and the result is zero. -/
theorem C99_linear_1d_counterexample :
    List.Forall₂ (ScaledBy 100) [q64 0, q64 1] [q64 0, q64 (2 ^ 100)] ∧
      ScaledBy 100 (q64 (1 / 2)) (q64 (2 ^ 99)) ∧
      rectilinear1DAt (Kind1D.linear.evalOne false) [q64 0, q64 1] [q64 0, q64 (1 / 2 ^ 1000)]
        (q64 (1 / 2)) = .ok (q64 (1 / 2 ^ 1001)) ∧
      rectilinear1DAt (Kind1D.linear.evalOne false) [q64 0, q64 (2 ^ 100)]
        [q64 0, q64 (1 / 2 ^ 1000)] (q64 (2 ^ 99)) = .ok (q64 0) := by
  refine ⟨?_, ?_, ?_, ?_⟩ <;> decide +kernel

/-- The power of two in C99 is needed: with the values `0, 1` at the nodes `9 / 2^58` and
`1 + 65 / 2^49`, and with the nodes and the point multiplied by three, which is exact here, the
results differ in the last place. -/
theorem C99_factor_three_counterexample :
    ∃ a b x a' b' x' r r' : F64,
      val a' = 3 * val a ∧ val b' = 3 * val b ∧ val x' = 3 * val x ∧
      multilinearRectilinearAt .flat false ![[a, b]] [q64 0, q64 1] ![x] = .ok r ∧
      multilinearRectilinearAt .flat false ![[a', b']] [q64 0, q64 1] ![x'] = .ok r' ∧
      (r <. r') = true :=
  ⟨q64 (9 / 2 ^ 58), q64 (1 + 65 / 2 ^ 49), q64 (1125899906842745 / 2 ^ 52),
    q64 (27 / 2 ^ 58), q64 (3 + 195 / 2 ^ 49), q64 (3377699720528235 / 2 ^ 52),
    q64 (9007199254740918 / 2 ^ 55), q64 (9007199254740919 / 2 ^ 55),
    by decide +kernel, by decide +kernel, by decide +kernel, by decide +kernel,
    by decide +kernel, by decide +kernel⟩

end Examples

end Interpn
