import Verif.Lemmas.Eval

/-! `interp_one` of the multicubic interpolators in closed form. -/

set_option autoImplicit false

namespace Interpn
open FloatOps

variable {T : Type} {N : Nat} [FloatOps T]

/-! ### Regular axes -/

/-- Footprint origin, saturation flag and relative position on a regular axis. -/
def cubRegAxis (dim : Nat) (start step x : T) : Res (Nat × Saturation × T) :=
  match rawCell start step x with
  | none => .err errRepr
  | some z =>
    if z = isizeMin then .panic
    else
      match ofUsize (clampIdx (z - 1) (dim - 4) + 1) with
      | none => .err errRepr
      | some f => .ok (clampIdx (z - 1) (dim - 4), satRegular dim z,
          (x -. (start +. step *. f)) /. step)

theorem cubRegAxis_bound {dim : Nat} {start step x : T} {a : Nat × Saturation × T}
    (h4 : 4 ≤ dim) (h : cubRegAxis dim start step x = .ok a) : a.1 + 4 ≤ dim := by
  unfold cubRegAxis at h
  split at h
  · cases h
  · next z _ =>
    split at h
    · cases h
    · split at h
      · cases h
      · rw [← Res.ok.inj h]; have := clampIdx_le (z - 1) (dim - 4); simp only; omega

theorem cubicDt_eq {o : Nat} (ho : (o : Int) + 1 ≤ isizeMax) (start step x : T) :
    cubicDt o start step x = match ofUsize (o + 1) with
      | none => .err errRepr
      | some f => .ok ((x -. (start +. step *. f)) /. step) := by
  unfold cubicDt
  rw [uadd_ok (by simp only [isizeMax, usizeMax] at *; omega), Res.ok_bind]
  cases (ofUsize (o + 1) : Option T) <;> rfl

theorem MulticubicRegular.axis_eq (s : MulticubicRegular T N) (x : Fin N → T)
    (k : Fin N) (h4 : 4 ≤ s.dims k) (hd : (s.dims k : Int) ≤ isizeMax) :
    s.axis x k = cubRegAxis (s.dims k) (s.starts k) (s.steps k) (x k) := by
  unfold MulticubicRegular.axis cubRegAxis
  simp only [aget_fin, Res.ok_bind]
  rw [cubGetLocRegular_eq h4 hd]
  cases hr : rawCell (s.starts k) (s.steps k) (x k) with
  | none => simp
  | some z =>
    simp only
    split
    · simp
    · simp only [Res.ok_bind]
      rw [cubicDt_eq (by have := clampIdx_le (z - 1) (s.dims k - 4); omega)]
      cases (ofUsize (clampIdx (z - 1) (s.dims k - 4) + 1) : Option T) <;> simp

/-- The 1-D rule applied along a regular axis. -/
def cubRegRule (fma fmaLow lin : Bool) (a : Nat × Saturation × T) (f : Nat → T) : T :=
  cubicInnerRegular fma fmaLow (fun p => f (a.1 + p.val)) a.2.2 a.2.1 lin

section
variable {s : MulticubicRegular T N} {x : Fin N → T} {g : (Fin N → Nat) → T}

theorem MulticubicRegular.interpOne_eq (fma : Bool) (hN : 0 < N)
    (hv : GoodVals 4 s.dims s.vals) (hs : IsSlice s.vals) (hg : Samples s.dims s.vals g) :
    s.interpOne fma x =
      (axisLoop N (0, .none, zero) (fun i => do
        cubRegAxis (← aget s.dims i) (← aget s.starts i) (← aget s.steps i) (← aget x i)) >>=
      fun a => .ok (axisByAxis (fun k => cubRegRule fma fma s.lin (a k)) g)) := by
  have hax : ∀ k : Fin N, s.axis x k = _ := fun k =>
    s.axis_eq x k (hv.min k) (hv.dim_le (by omega) hs k)
  have hloop : axisLoop N (0, .none, zero) (fun i => do
        cubRegAxis (← aget s.dims i) (← aget s.starts i) (← aget s.steps i) (← aget x i)) =
      axisLoop N (0, .none, zero) (s.axis x) := by
    apply axisLoop_congr
    intro k; rw [hax k]; simp
  rw [hloop]
  rw [MulticubicRegular.interpOne_form]
  refine Eq.trans ?_ (flat_eq (FP := 4) zero hv (by omega) hg hN (by omega) offset4 offset4_eq
    (0, .none, zero) (s.axis x) (fun a => a.1)
    (fun axes ind v => do
      let a ← aget axes ind; return cubicInnerRegular fma fma v a.2.2 a.2.1 s.lin)
    (fun _ a v => cubicInnerRegular fma fma v a.2.2 a.2.1 s.lin) ?_ ?_)
  · rfl
  · intro k a ha
    rw [hax k] at ha
    exact cubRegAxis_bound (hv.min k) ha
  · intro axes _ k v
    simp

end

section
variable {M : Nat} {s : MulticubicRegularRecursive T M} {x : Fin N → T}
  {g : (Fin N → Nat) → T} {dims : Fin N → Nat} {starts steps : Fin N → T}

theorem MulticubicRegularRecursive.interpOne_eq (fma : Bool) (hT : TotalOfUsize T)
    (hn : s.ndims = N)
    (hM : N ≤ M) (hdims : ∀ k, s.dims (Fin.castLE hM k) = dims k)
    (hstarts : ∀ k, s.starts (Fin.castLE hM k) = starts k)
    (hsteps : ∀ k, s.steps (Fin.castLE hM k) = steps k)
    (hv : GoodVals 4 dims s.vals) (hs : IsSlice s.vals) (hg : Samples dims s.vals g) :
    s.interpOne fma (List.ofFn x) =
      (axisLoop N (0, .none, zero) (fun i => do
        cubRegAxis (← aget dims i) (← aget starts i) (← aget steps i) (← aget x i)) >>=
      fun a => .ok (axisByAxis (fun k => cubRegRule fma false s.lin (a k)) g)) := by
  obtain ⟨ndims, sdims, sstarts, ssteps, svals, lin⟩ := s
  simp only at hn hdims hstarts hsteps hv hs hg ⊢
  subst hn
  have hdims' : ∀ k : Fin ndims, aget sdims k.val = .ok (dims k) := fun k => by
    rw [aget_lt _ (lt_of_lt_of_le k.isLt hM), ← hdims k]; rfl
  have hstarts' : ∀ k : Fin ndims, aget sstarts k.val = .ok (starts k) := fun k => by
    rw [aget_lt _ (lt_of_lt_of_le k.isLt hM), ← hstarts k]; rfl
  have hsteps' : ∀ k : Fin ndims, aget ssteps k.val = .ok (steps k) := fun k => by
    rw [aget_lt _ (lt_of_lt_of_le k.isLt hM), ← hsteps k]; rfl
  have hrec : recDimprod ndims sdims = .ok (strides dims) := by
    have hfun : (fun k : Fin ndims => sdims (Fin.castLE hM k)) = dims := funext hdims
    rw [recDimprod_eq ndims hM sdims, hfun]
    · intro k hk
      have := hdims ⟨k, hk⟩
      have h2 := hv.min ⟨k, hk⟩
      have e : Fin.castLE hM ⟨k, hk⟩ = k := rfl
      rw [e] at this; omega
    · simp only [hdims]; exact hv.len ▸ hv.max
  have hcl : ∀ (k : Fin ndims) z, ((clampIdx (z - 1) (dims k - 4) : Nat) : Int) + 1 ≤ isizeMax :=
    fun k z => by
      have := hv.dim_le (by omega) hs k
      have := hv.min k
      have := clampIdx_le (z - 1) (dims k - 4)
      omega
  let F : Nat → Res (Nat × Saturation) := fun i => do
      cubGetLocRegular (← aget sdims i) (← aget sstarts i) (← aget ssteps i)
        (← aget (fun k : Fin ndims => (List.ofFn x)[k.val]'(by simp)) i)
  have hloc : ∀ k : Fin ndims, F k.val =
      match rawCell (starts k) (steps k) (x k) with
      | none => .err errRepr
      | some z => if z = isizeMin then .panic
          else .ok (clampIdx (z - 1) (dims k - 4), satRegular (dims k) z) := by
    intro k
    simp only [F]
    rw [hdims', hstarts', hsteps']
    simp only [aget_fin, Res.ok_bind, List.getElem_ofFn]
    exact cubGetLocRegular_eq (hv.min k) (hv.dim_le (by omega) hs k) _ _ _
  -- relation of the combined per-axis function with the first loop
  have hcomb : ∀ k : Fin ndims, cubRegAxis (dims k) (starts k) (steps k) (x k) =
      (F k.val >>= fun a => cubicDt a.1 (starts k) (steps k) (x k) >>= fun dt =>
        .ok (a.1, a.2, dt)) := by
    intro k
    rw [hloc k]
    unfold cubRegAxis
    split
    · simp
    · next z _ =>
      split
      · simp
      · simp only [Res.ok_bind]
        rw [cubicDt_eq (hcl k z)]
        cases (ofUsize (clampIdx (z - 1) (dims k - 4) + 1) : Option T) <;> simp
  have hdt : ∀ (k : Fin ndims) a, F k.val = .ok a →
      ∃ dt, cubicDt a.1 (starts k) (steps k) (x k) = .ok dt := by
    intro k a ha
    rw [hloc k] at ha
    split at ha
    · cases ha
    · next z _ =>
      split at ha
      · cases ha
      · rw [← Res.ok.inj ha]
        simp only
        rw [cubicDt_eq (hcl k z)]
        obtain ⟨f, hf⟩ := hT (clampIdx (z - 1) (dims k - 4) + 1) (by
          have := hcl k z; simp only [isizeMax, usizeMax] at *; omega)
        rw [hf]
        exact ⟨_, rfl⟩
  rw [MulticubicRegularRecursive.interpOne_form]
  rw [dif_pos ⟨by simp, hM⟩]
  simp only
  rw [hrec, Res.ok_bind]
  change (axisLoop ndims (0, Saturation.none) F >>= _) = _
  have hC : ∀ k : Fin ndims, (do
      cubRegAxis (← aget dims k.val) (← aget starts k.val) (← aget steps k.val)
        (← aget x k.val)) =
      cubRegAxis (dims k) (starts k) (steps k) (x k) := by intro k; simp
  rcases axisLoop_cases ndims (0, Saturation.none) F with
      ⟨a, ha, hl⟩ | ⟨i, e, hpre, he, hl⟩ | ⟨i, hpre, hp, hl⟩
  · have hex : ∀ k : Fin ndims, ∃ dt, cubicDt (a k).1 (starts k) (steps k) (x k) = .ok dt :=
      fun k => hdt k _ (ha k)
    choose dts hdts using hex
    rw [hl, Res.ok_bind, axisLoop_ok ndims zero _ dts, Res.ok_bind,
      axisLoop_ok ndims _ _ (fun k => ((a k).1, (a k).2, dts k)), Res.ok_bind]
    · have hok : ∀ k, cubRegAxis (dims k) (starts k) (steps k) (x k) =
          .ok ((a k).1, (a k).2, dts k) := by
        intro k; rw [hcomb k, ha k, Res.ok_bind, hdts k, Res.ok_bind]
      refine rec_ok (FP := 4) zero hv (by omega) hg (by omega) _ _
        (fun k v => cubicInnerRegular fma false v (dts k) (a k).2 lin) ?_ ?_
      · intro k; exact cubRegAxis_bound (hv.min k) (hok k)
      · intro k v; simp
    · intro k
      rw [hC k, hcomb k, ha k, Res.ok_bind, hdts k, Res.ok_bind]
    · intro k
      rw [hstarts', hsteps']
      simp only [aget_fin, Res.ok_bind, List.getElem_ofFn]
      exact hdts k
  · rw [hl, Res.err_bind]
    have := (axisLoop_fail ndims ((0, .none, zero) : Nat × Saturation × T) (fun i => do
      cubRegAxis (← aget dims i) (← aget starts i) (← aget steps i) (← aget x i)) i i.isLt ?_).1 e ?_
    · rw [this, Res.err_bind]
    · intro j hj
      obtain ⟨b, hb⟩ := hpre ⟨j, by omega⟩ hj
      obtain ⟨dt, hdt'⟩ := hdt _ _ hb
      have := hC ⟨j, by omega⟩
      rw [hcomb, hb, Res.ok_bind, hdt', Res.ok_bind] at this
      exact ⟨_, this⟩
    · rw [hC i, hcomb i, he, Res.err_bind]
  · rw [hl, Res.panic_bind]
    have := (axisLoop_fail ndims ((0, .none, zero) : Nat × Saturation × T) (fun i => do
      cubRegAxis (← aget dims i) (← aget starts i) (← aget steps i) (← aget x i)) i i.isLt ?_).2 ?_
    · rw [this, Res.panic_bind]
    · intro j hj
      obtain ⟨b, hb⟩ := hpre ⟨j, by omega⟩ hj
      obtain ⟨dt, hdt'⟩ := hdt _ _ hb
      have := hC ⟨j, by omega⟩
      rw [hcomb, hb, Res.ok_bind, hdt', Res.ok_bind] at this
      exact ⟨_, this⟩
    · rw [hC i, hcomb i, hp, Res.panic_bind]

end

/-! ### Rectilinear axes -/

/-- First node of the footprint on a rectilinear axis. -/
def cubCell (grid : List T) (x : T) : Nat := min (cellsBelow grid x - 2) (grid.length - 4)

theorem cubCell_bound {grid : List T} (h : 4 ≤ grid.length) (x : T) :
    cubCell grid x + 4 ≤ grid.length := by
  unfold cubCell; omega

/-- The 1-D rule applied along a rectilinear axis. -/
def cubRectRule (fma fmaK1 fmaLin lin : Bool) (grid : List T) (x : T) (f : Nat → T) : T :=
  cubicInnerRectilinear fma fmaK1 fmaLin (fun p => f (cubCell grid x + p.val))
    (fun p => grid.getD (cubCell grid x + p.val) zero) x
    (satRectilinear grid.length (cellsBelow grid x)) lin

section
variable {s : MulticubicRectilinear T N} {x : Fin N → T} {g : (Fin N → Nat) → T}

theorem MulticubicRectilinear.interpOne_ok (fma : Bool) (hN : 0 < N)
    (hd : ∀ k, s.dims k = (s.grids k).length)
    (hv : GoodVals 4 s.dims s.vals) (hs : IsSlice s.vals) (hg : Samples s.dims s.vals g) :
    s.interpOne fma x =
      .ok (axisByAxis (fun k => cubRectRule fma false false s.lin (s.grids k) (x k)) g) := by
  have hsl : ∀ k, IsSlice (s.grids k) := fun k => by
    have := hv.dim_le (by omega) hs k
    rw [hd k] at this; exact (isSlice_iff _).2 this
  have hax : ∀ k : Fin N, s.axis x k = .ok (cubCell (s.grids k) (x k),
      satRectilinear (s.grids k).length (cellsBelow (s.grids k) (x k))) := by
    intro k
    unfold MulticubicRectilinear.axis
    simp only [aget_fin, Res.ok_bind]
    rw [cubGetLocRectilinear_eq (hv.min k) (hv.dim_le (by omega) hs k) (hsl k), hd k]; rfl
  have hb : ∀ k, cubCell (s.grids k) (x k) + 4 ≤ (s.grids k).length := fun k =>
    cubCell_bound (by rw [← hd k]; exact hv.min k) _
  rw [MulticubicRectilinear.interpOne_form]
  refine Eq.trans ?_ ((flat_eq (FP := 4) zero hv (by omega) hg hN (by omega) offset4 offset4_eq
    (0, .none) (s.axis x) (fun a => a.1)
    (fun axes ind v => do
      let a ← aget axes ind
      let g ← gridCell (← aget s.grids ind) a.1
      return cubicInnerRectilinear fma false false v g (← aget x ind) a.2 s.lin)
    (fun k a v => cubicInnerRectilinear fma false false v
      (fun p => (s.grids k).getD (a.1 + p.val) zero) (x k) a.2 s.lin) ?_ ?_).trans ?_)
  · rfl
  · intro k a ha
    rw [hax k] at ha
    rw [← Res.ok.inj ha, hd k]; exact hb k
  · intro axes hax' k v
    have : axes k = (cubCell (s.grids k) (x k),
      satRectilinear (s.grids k).length (cellsBelow (s.grids k) (x k))) := by
      have := hax' k; rw [hax k] at this; exact (Res.ok.inj this).symm
    simp only [aget_fin, Res.ok_bind]
    rw [this, gridCell_eq (hsl k) (hb k)]
    simp
  · rw [axisLoop_ok N _ _ _ hax, Res.ok_bind]
    rfl

end

section
variable {M : Nat} {s : MulticubicRectilinearRecursive T M} {x : Fin N → T}
  {g : (Fin N → Nat) → T} {grids : Fin N → List T}

theorem MulticubicRectilinearRecursive.interpOne_ok (fma : Bool) (hn : s.grids.length = N)
    (hM : N ≤ M) (hgr : ∀ k : Fin N, s.grids[k.val]? = some (grids k))
    (hdims : ∀ k, s.dims (Fin.castLE hM k) = (grids k).length)
    (hv : GoodVals 4 (fun k => (grids k).length) s.vals) (hs : IsSlice s.vals)
    (hg : Samples (fun k => (grids k).length) s.vals g) :
    s.interpOne fma (List.ofFn x) =
      .ok (axisByAxis (fun k => cubRectRule fma fma fma s.lin (grids k) (x k)) g) := by
  subst hn
  have hdims' : ∀ k : Fin s.grids.length, aget s.dims k.val = .ok (grids k).length := fun k => by
    rw [aget_lt _ (lt_of_lt_of_le k.isLt hM), ← hdims k]; rfl
  have hgr' : ∀ k : Fin s.grids.length, lget s.grids k.val = .ok (grids k) := fun k =>
    lget_of_some (hgr k)
  have hrec : recDimprod s.grids.length s.dims = .ok (strides fun k => (grids k).length) := by
    have hfun : (fun k : Fin s.grids.length => s.dims (Fin.castLE hM k)) =
      fun k => (grids k).length := funext hdims
    rw [recDimprod_eq s.grids.length hM s.dims, hfun]
    · intro k hk
      have := hdims ⟨k, hk⟩
      have h2 := hv.min ⟨k, hk⟩
      have e : Fin.castLE hM ⟨k, hk⟩ = k := rfl
      rw [e] at this; omega
    · simp only [hdims]; exact hv.len ▸ hv.max
  have hsl : ∀ k, IsSlice (grids k) := fun k => (isSlice_iff _).2 (hv.dim_le (by omega) hs k)
  have hb : ∀ k, cubCell (grids k) (x k) + 4 ≤ (grids k).length := fun k =>
    cubCell_bound (hv.min k) _
  rw [MulticubicRectilinearRecursive.interpOne_form]
  rw [dif_pos ⟨by simp, hM⟩]
  simp only
  rw [hrec, Res.ok_bind, axisLoop_ok _ _ _ fun k => (cubCell (grids k) (x k),
      satRectilinear (grids k).length (cellsBelow (grids k) (x k))), Res.ok_bind]
  · refine rec_ok (FP := 4) zero hv (by omega) hg (by omega) _ _
      (fun k v => cubicInnerRectilinear fma fma fma v
        (fun p => (grids k).getD (cubCell (grids k) (x k) + p.val) zero) (x k)
        (satRectilinear (grids k).length (cellsBelow (grids k) (x k))) s.lin) hb ?_
    intro k v
    rw [hgr' k]
    simp only [aget_fin, Res.ok_bind, List.getElem_ofFn]
    rw [gridCell_eq (hsl k) (hb k)]
    simp
  · intro k
    rw [hgr', hdims']
    simp only [aget_fin, Res.ok_bind, List.getElem_ofFn]
    rw [cubGetLocRectilinear_eq (hv.min k) (hv.dim_le (by omega) hs k) (hsl k)]; rfl

end

end Interpn
