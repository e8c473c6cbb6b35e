import Verif.Lemmas.FormsNew
import Verif.Lemmas.Nest
import Verif.Lemmas.Cells

/-! `interp_one` of every N-d interpolator in closed form: cell selection on each axis, then
axis-by-axis evaluation of the stored values. No law of arithmetic is used. -/

set_option autoImplicit false

namespace Interpn
open FloatOps

variable {T : Type} {N FP : Nat}

/-- What every constructor establishes about the value array. -/
structure GoodVals (m : Nat) (dims : Fin N → Nat) (vals : List T) : Prop where
  len : vals.length = ∏ k, dims k
  min : ∀ k, m ≤ dims k
  max : vals.length ≤ usizeMax

namespace GoodVals
variable {m : Nat} {dims : Fin N → Nat} {vals : List T}

theorem pos (h : GoodVals m dims vals) (hm : 0 < m) (k : Fin N) : 0 < dims k := by
  have := h.min k; omega

theorem dim_le_len (h : GoodVals m dims vals) (hm : 0 < m) (k : Fin N) :
    dims k ≤ vals.length := by
  rw [h.len]
  exact Finset.single_le_prod' (f := dims) (fun i _ => h.pos hm i) (Finset.mem_univ k)

theorem dim_le (h : GoodVals m dims vals) (hm : 0 < m) (hs : IsSlice vals) (k : Fin N) :
    (dims k : Int) ≤ isizeMax := by
  have := h.dim_le_len hm k
  rw [isSlice_iff] at hs
  omega

end GoodVals

/-! ### Generic forms of the two schedules -/

section
variable {α : Type} {m : Nat} {dims : Fin N → Nat} {vals : List T} {g : (Fin N → Nat) → T}

theorem flat_eq (zero : T) (hv : GoodVals m dims vals) (hm : 0 < m) (hg : Samples dims vals g)
    (hN : 0 < N) (hFP : 1 < FP) (offset : Nat → Nat → Nat)
    (hoff : ∀ i k, offset i k = i / FP ^ k % FP)
    (init : α) (axis : Nat → Res α) (org : α → Nat)
    (node : (Fin N → α) → Nat → (Fin FP → T) → Res T) (op : Fin N → α → (Fin FP → T) → T)
    (horig : ∀ (k : Fin N) a, axis k = .ok a → org a + FP ≤ dims k)
    (hnode : ∀ axes : Fin N → α, (∀ k : Fin N, axis k = .ok (axes k)) →
      ∀ (k : Fin N) v, node axes k v = .ok (op k (axes k) v)) :
    (flatSetup dims init axis >>= fun p =>
      flatEval FP zero offset (fun k => org (p.2 k)) p.1 vals (node p.2)) =
    (axisLoop N init axis >>= fun axes => .ok (axisByAxis
      (fun k f => op k (axes k) fun p => f (org (axes k) + p.val)) g)) := by
  rw [flatSetup_eq dims init axis (hv.pos hm) (hv.len ▸ hv.max)]
  rcases axisLoop_cases N init axis with ⟨a, ha, h⟩ | ⟨i, e, _, _, h⟩ | ⟨i, _, _, h⟩
  · simp only [h, Res.ok_bind]
    exact flatEval_axisByAxis zero dims _ vals (node a) (fun k v => op k (a k) v) g hv.len hv.max
      (hv.pos hm) (fun k => horig k _ (ha k)) hg (fun k v => hnode a ha k v) offset hN hFP hoff
  · simp [h]
  · simp [h]

theorem pick_eq (hv : GoodVals m dims vals) (hm : 0 < m) (hg : Samples dims vals g)
    (axis : Nat → Res Nat) (horig : ∀ (k : Fin N) a, axis k = .ok a → a < dims k) :
    (flatSetup dims 0 axis >>= fun p => indexArr p.2 p.1 vals) =
    (axisLoop N 0 axis >>= fun loc => .ok (g loc)) := by
  rw [flatSetup_eq dims 0 axis (hv.pos hm) (hv.len ▸ hv.max)]
  rcases axisLoop_cases N 0 axis with ⟨a, ha, h⟩ | ⟨i, e, _, _, h⟩ | ⟨i, _, _, h⟩
  · simp only [h, Res.ok_bind]
    have hlt : ∀ k, a k < dims k := fun k => horig k _ (ha k)
    rw [indexArr_eq dims a vals hlt hv.len hv.max, hg.lget hlt]
  · simp [h]
  · simp [h]

theorem rec_ok (zero : T) (hv : GoodVals m dims vals) (hm : 0 < m) (hg : Samples dims vals g)
    (hFP : 1 < FP) (origin : Fin N → Nat)
    (node : Nat → (Fin FP → T) → Res T) (op : Fin N → (Fin FP → T) → T)
    (horig : ∀ (k : Fin N), origin k + FP ≤ dims k)
    (hnode : ∀ (k : Fin N) v, node k v = .ok (op k v)) :
    (populate FP zero origin (strides dims) vals node N origin >>= fun r => .ok r.1) =
    .ok (axisByAxis (fun k f => op k fun p => f (origin k + p.val)) g) := by
  obtain ⟨loc, h⟩ := populate_axisByAxis zero dims origin vals node op g hv.len hv.max
    (hv.pos hm) horig hg hnode (by omega)
  rw [h, Res.ok_bind]

end

/-- An axis loop all of whose failures are the same error. -/
theorem axisLoop_err {α : Type} (init : α) (f : Nat → Res α) (e : String)
    (h : ∀ k : Fin N, (∃ a, f k = .ok a) ∨ f k = .err e) (k : Fin N) (hk : f k = .err e) :
    axisLoop N init f = .err e := by
  rcases axisLoop_cases N init f with ⟨a, ha, _⟩ | ⟨i, e', _, he, hl⟩ | ⟨i, _, hp, _⟩
  · rw [ha k] at hk; cases hk
  · rcases h i with ⟨a, ha⟩ | hi
    · rw [ha] at he; cases he
    · rw [hi] at he; cases he; exact hl
  · rcases h i with ⟨a, ha⟩ | hi
    · rw [ha] at hp; cases hp
    · rw [hi] at hp; cases hp

variable [FloatOps T]

/-! ### Linear interpolation on regular axes -/

/-- Cell and relative position on a regular axis, `none` if not representable. -/
def linRegAxis (fma : Bool) (dim : Nat) (start step x : T) : Option (Nat × T) :=
  match rawCell start step x with
  | none => none
  | some z =>
    match ofUsize (clampIdx z (dim - 2)) with
    | none => none
    | some f => some (clampIdx z (dim - 2),
        (x -. (if fma then mulAdd step f start else start +. step *. f)) /. step)

theorem linRegAxis_bound {fma : Bool} {dim : Nat} {start step x : T} {a : Nat × T}
    (h2 : 2 ≤ dim) (h : linRegAxis fma dim start step x = some a) : a.1 + 2 ≤ dim := by
  unfold linRegAxis at h
  split at h
  · cases h
  · split at h
    · cases h
    · next z _ _ _ _ => cases h; have := clampIdx_le z (dim - 2); simp only; omega

theorem linRegAxis_eq_none {fma : Bool} {dim : Nat} {start step x : T} :
    linRegAxis fma dim start step x = none ↔
      rawCell start step x = none ∨
      ∃ z, rawCell start step x = some z ∧
        (ofUsize (clampIdx z (dim - 2)) : Option T) = none := by
  unfold linRegAxis
  split
  · next h => simp [h]
  · next z h => split <;> simp_all

theorem MultilinearRegular.axis_eq (fma : Bool) (s : MultilinearRegular T N) (x : Fin N → T)
    (k : Fin N) (h2 : 2 ≤ s.dims k) (hd : (s.dims k : Int) ≤ isizeMax) :
    s.axis fma x k = match linRegAxis fma (s.dims k) (s.starts k) (s.steps k) (x k) with
      | none => .err errRepr
      | some a => .ok a := by
  unfold MultilinearRegular.axis linRegAxis
  simp only [aget_fin, Res.ok_bind]
  rw [linGetLocRegular_eq h2 hd]
  split
  · next h => simp [h]
  · next z h =>
    simp only [h, Res.ok_bind]
    cases (ofUsize (clampIdx z (s.dims k - 2)) : Option T) <;> simp [errRepr]

section
variable {s : MultilinearRegular T N} {x : Fin N → T} {g : (Fin N → Nat) → T}

theorem MultilinearRegular.interpOne_eq (fma : Bool) (hN : 0 < N)
    (hv : GoodVals 2 s.dims s.vals) (hs : IsSlice s.vals) (hg : Samples s.dims s.vals g) :
    s.interpOne fma x = (axisLoop N (0, zero) (s.axis fma x) >>= fun a =>
      .ok (axisByAxis (fun k f => lerp fma (a k).2 fun p => f ((a k).1 + p.val)) g)) := by
  rw [MultilinearRegular.interpOne_form]
  refine Eq.trans ?_ (flat_eq (FP := 2) zero hv (by omega) hg hN (by omega) offset2 offset2_eq
    (0, zero) (s.axis fma x) (fun a => a.1)
    (fun axes ind v => do let a ← aget axes ind; return lerp fma a.2 v)
    (fun _ a v => lerp fma a.2 v) ?_ ?_)
  · rfl
  · intro k a ha
    rw [s.axis_eq fma x k (hv.min k) (hv.dim_le (by omega) hs k)] at ha
    split at ha
    · cases ha
    · next b hb => cases ha; exact linRegAxis_bound (hv.min k) hb
  · intro axes _ k v
    simp

theorem MultilinearRegular.interpOne_ok (fma : Bool) (hN : 0 < N)
    (hv : GoodVals 2 s.dims s.vals) (hs : IsSlice s.vals) (hg : Samples s.dims s.vals g)
    (a : Fin N → Nat × T)
    (ha : ∀ k, linRegAxis fma (s.dims k) (s.starts k) (s.steps k) (x k) = some (a k)) :
    s.interpOne fma x =
      .ok (axisByAxis (fun k f => lerp fma (a k).2 fun p => f ((a k).1 + p.val)) g) := by
  rw [interpOne_eq fma hN hv hs hg, axisLoop_ok N _ _ a, Res.ok_bind]
  intro k
  rw [s.axis_eq fma x k (hv.min k) (hv.dim_le (by omega) hs k), ha k]

theorem MultilinearRegular.interpOne_err (fma : Bool) (hN : 0 < N)
    (hv : GoodVals 2 s.dims s.vals) (hs : IsSlice s.vals)
    (ha : ∃ k, linRegAxis fma (s.dims k) (s.starts k) (s.steps k) (x k) = none) :
    s.interpOne fma x = .err errRepr := by
  obtain ⟨k, hk⟩ := ha
  rw [interpOne_eq fma hN hv hs (samples_valAt zero _ _ hv.len),
    axisLoop_err _ _ errRepr (fun k => ?_) k, Res.err_bind]
  · rw [s.axis_eq fma x k (hv.min k) (hv.dim_le (by omega) hs k), hk]
  · rw [s.axis_eq fma x k (hv.min k) (hv.dim_le (by omega) hs k)]
    cases linRegAxis fma (s.dims k) (s.starts k) (s.steps k) (x k) <;> simp

end

/-! ### Linear interpolation on regular axes, recursive -/

section
variable {M : Nat} {s : MultilinearRegularRecursive T M} {x : Fin N → T}
  {g : (Fin N → Nat) → T} {dims : Fin N → Nat} {starts steps : Fin N → T}

theorem MultilinearRegularRecursive.interpOne_cases (fma : Bool) (hN : 0 < N) (hn : s.ndims = N)
    (hM : N ≤ M) (hdims : ∀ k, s.dims (Fin.castLE hM k) = dims k)
    (hstarts : ∀ k, s.starts (Fin.castLE hM k) = starts k)
    (hsteps : ∀ k, s.steps (Fin.castLE hM k) = steps k)
    (hv : GoodVals 2 dims s.vals) (hs : IsSlice s.vals) (hg : Samples dims s.vals g) :
    (∀ a : Fin N → Nat × T,
      (∀ k, linRegAxis false (dims k) (starts k) (steps k) (x k) = some (a k)) →
      s.interpOne fma (List.ofFn x) =
      .ok (axisByAxis (fun k f => lerp fma (a k).2 fun p => f ((a k).1 + p.val)) g)) ∧
    ((∃ k, linRegAxis false (dims k) (starts k) (steps k) (x k) = none) →
      s.interpOne fma (List.ofFn x) = .err errRepr) := by
  obtain ⟨ndims, sdims, sstarts, ssteps, svals⟩ := s
  simp only at hn hdims hstarts hsteps hv hs hg
  subst hn
  have hdims' : ∀ k : Fin ndims, aget sdims k.val = .ok (dims k) := fun k => by
    rw [aget_lt _ (lt_of_lt_of_le k.isLt hM), ← hdims k]; rfl
  have hstarts' : ∀ k : Fin ndims, aget sstarts k.val = .ok (starts k) := fun k => by
    rw [aget_lt _ (lt_of_lt_of_le k.isLt hM), ← hstarts k]; rfl
  have hsteps' : ∀ k : Fin ndims, aget ssteps k.val = .ok (steps k) := fun k => by
    rw [aget_lt _ (lt_of_lt_of_le k.isLt hM), ← hsteps k]; rfl
  have hrec : recDimprod ndims sdims = .ok (strides dims) := by
    have hfun : (fun k : Fin ndims => sdims (Fin.castLE hM k)) = dims := funext hdims
    rw [recDimprod_eq ndims hM sdims, hfun]
    · intro k hk
      have := hdims ⟨k, hk⟩
      have h2 := hv.min ⟨k, hk⟩
      have e : Fin.castLE hM ⟨k, hk⟩ = k := rfl
      rw [e] at this; omega
    · simp only [hdims]; exact hv.len ▸ hv.max
  have hloc : ∀ k : Fin ndims, (do
      linGetLocRegular (← aget sdims k.val) (← aget sstarts k.val) (← aget ssteps k.val)
        (← aget (fun k : Fin ndims => (List.ofFn x)[k.val]'(by simp)) k.val)) =
      match rawCell (starts k) (steps k) (x k) with
      | none => .err errRepr
      | some z => .ok (clampIdx z (dims k - 2)) := by
    intro k
    rw [hdims', hstarts', hsteps']
    simp only [aget_fin, Res.ok_bind, List.getElem_ofFn]
    exact linGetLocRegular_eq (hv.min k) (hv.dim_le (by omega) hs k) _ _ _
  rw [MultilinearRegularRecursive.interpOne_form]
  rw [dif_pos ⟨by simp, hM⟩]
  simp only
  rw [hrec, Res.ok_bind]
  constructor
  · intro a ha
    have horg : axisLoop ndims 0 (fun i => do
        linGetLocRegular (← aget sdims i) (← aget sstarts i) (← aget ssteps i)
          (← aget (fun k : Fin ndims => (List.ofFn x)[k.val]'(by simp)) i)) =
        .ok fun k => (a k).1 := by
      apply axisLoop_ok
      intro k
      rw [hloc k]
      have := ha k
      unfold linRegAxis at this
      split at this
      · cases this
      · next z hz =>
        split at this
        · cases this
        · rw [← Option.some.inj this]
    rw [horg, Res.ok_bind, axisLoop_ok ndims _ _ fun k => (a k).2, Res.ok_bind]
    · refine rec_ok (FP := 2) zero hv (by omega) hg (by omega) _ _ (fun k v => lerp fma (a k).2 v)
        ?_ ?_
      · intro k; exact linRegAxis_bound (hv.min k) (ha k)
      · intro k v; simp
    · intro k
      have := ha k
      unfold linRegAxis at this
      split at this
      · cases this
      · next z hz =>
        split at this
        · cases this
        · next f hf =>
          simp only [Option.some.injEq] at this
          rw [hstarts', hsteps']
          simp only [aget_fin, Res.ok_bind, ← this, hf, List.getElem_ofFn, Res.pure_eq,
            Bool.false_eq_true, if_false]
  · rintro ⟨k, hk⟩
    rcases axisLoop_cases ndims 0 (fun i => do
        linGetLocRegular (← aget sdims i) (← aget sstarts i) (← aget ssteps i)
          (← aget (fun k : Fin ndims => (List.ofFn x)[k.val]'(by simp)) i)) with
      ⟨o, ho, hl⟩ | ⟨i, e, _, he, hl⟩ | ⟨i, _, hp, hl⟩
    · rw [hl, Res.ok_bind]
      have hax : ∀ k : Fin ndims, (do
          match ofUsize (← aget o k.val) with
          | none => .err "Unrepresentable coordinate value"
          | some origin_f =>
            let a ← aget sstarts k.val
            let b ← aget ssteps k.val
            let c ← aget (fun k : Fin ndims => (List.ofFn x)[k.val]'(by simp)) k.val
            let d ← aget ssteps k.val
            return (c -. (a +. b *. origin_f)) /. d : Res T) =
          match linRegAxis false (dims k) (starts k) (steps k) (x k) with
          | none => .err errRepr
          | some a => .ok a.2 := by
        intro k
        have h1 := ho k
        rw [hloc k] at h1
        rw [hstarts', hsteps']
        unfold linRegAxis
        split at h1
        · cases h1
        · next z hz =>
          simp only [Res.ok.injEq] at h1
          simp only [aget_fin, Res.ok_bind, ← h1, List.getElem_ofFn]
          cases (ofUsize (clampIdx z (dims k - 2)) : Option T) <;> simp [errRepr]
      rw [axisLoop_err (N := ndims) _ _ errRepr (fun k => ?_) k, Res.err_bind]
      · exact (hax k).trans (by rw [hk])
      · cases hh : linRegAxis false (dims k) (starts k) (steps k) (x k) with
        | none => exact Or.inr ((hax k).trans (by rw [hh]))
        | some a => exact Or.inl ⟨a.2, (hax k).trans (by rw [hh])⟩
    · rw [hl, Res.err_bind]
      rw [hloc i] at he
      split at he
      · cases he; rfl
      · cases he
    · rw [hloc i] at hp
      split at hp <;> cases hp

end

/-! ### Linear interpolation on rectilinear axes -/

/-- Lower node of the selected cell on a rectilinear axis. -/
def linCell (grid : List T) (x : T) : Nat := min (cellsBelow grid x - 1) (grid.length - 2)

theorem linCell_bound {grid : List T} (h : 2 ≤ grid.length) (x : T) :
    linCell grid x + 2 ≤ grid.length := by
  unfold linCell; omega

/-- The 1-D rule applied along a rectilinear axis by the code. -/
def linRule (fma : Bool) (grid : List T) (x : T) (f : Nat → T) : T :=
  lerp fma (cellPos (fun i => grid.getD i zero) (linCell grid x) x)
    fun p => f (linCell grid x + p.val)

section
variable {s : MultilinearRectilinear T N} {x : Fin N → T} {g : (Fin N → Nat) → T}

theorem MultilinearRectilinear.interpOne_ok (fma : Bool) (hN : 0 < N)
    (hd : ∀ k, s.dims k = (s.grids k).length)
    (hv : GoodVals 2 s.dims s.vals) (hs : IsSlice s.vals) (hg : Samples s.dims s.vals g) :
    s.interpOne fma x = .ok (axisByAxis (fun k => linRule fma (s.grids k) (x k)) g) := by
  have hsl : ∀ k, IsSlice (s.grids k) := fun k => by
    have := hv.dim_le (by omega) hs k
    rw [hd k] at this; exact (isSlice_iff _).2 this
  have hax : ∀ k : Fin N, s.axis x k = .ok (linCell (s.grids k) (x k)) := by
    intro k
    unfold MultilinearRectilinear.axis
    simp only [aget_fin, Res.ok_bind]
    rw [linGetLocRectilinear_eq (hv.min k) (hv.dim_le (by omega) hs k) (hsl k), hd k]; rfl
  have hb : ∀ k, linCell (s.grids k) (x k) + 2 ≤ (s.grids k).length := fun k =>
    linCell_bound (by rw [← hd k]; exact hv.min k) _
  rw [MultilinearRectilinear.interpOne_form]
  refine Eq.trans ?_ ((flat_eq (FP := 2) zero hv (by omega) hg hN (by omega) offset2 offset2_eq
    0 (s.axis x) id
    (fun origin ind v => do
      lerpRectilinear fma (← aget s.grids ind) (← aget origin ind) (← aget x ind) v)
    (fun k o v => lerp fma (cellPos (fun i => (s.grids k).getD i zero) o (x k)) v) ?_ ?_).trans ?_)
  · rfl
  · intro k a ha
    rw [hax k] at ha; cases ha
    rw [hd k]; exact hb k
  · intro axes hax' k v
    have : axes k = linCell (s.grids k) (x k) := by
      have := hax' k; rw [hax k] at this; exact (Res.ok.inj this).symm
    simp only [aget_fin, Res.ok_bind]
    rw [this, lerpRectilinear_eq fma (hsl k) (hb k)]
  · rw [axisLoop_ok N _ _ _ hax, Res.ok_bind]
    rfl

end

section
variable {M : Nat} {s : MultilinearRectilinearRecursive T M} {x : Fin N → T}
  {g : (Fin N → Nat) → T} {grids : Fin N → List T}

theorem MultilinearRectilinearRecursive.interpOne_ok (fma : Bool) (hn : s.grids.length = N)
    (hM : N ≤ M) (hgr : ∀ k : Fin N, s.grids[k.val]? = some (grids k))
    (hdims : ∀ k, s.dims (Fin.castLE hM k) = (grids k).length)
    (hv : GoodVals 2 (fun k => (grids k).length) s.vals) (hs : IsSlice s.vals)
    (hg : Samples (fun k => (grids k).length) s.vals g) :
    s.interpOne fma (List.ofFn x) =
      .ok (axisByAxis (fun k => linRule fma (grids k) (x k)) g) := by
  subst hn
  have hdims' : ∀ k : Fin s.grids.length, aget s.dims k.val = .ok (grids k).length := fun k => by
    rw [aget_lt _ (lt_of_lt_of_le k.isLt hM), ← hdims k]; rfl
  have hgr' : ∀ k : Fin s.grids.length, lget s.grids k.val = .ok (grids k) := fun k =>
    lget_of_some (hgr k)
  have hrec : recDimprod s.grids.length s.dims = .ok (strides fun k => (grids k).length) := by
    have hfun : (fun k : Fin s.grids.length => s.dims (Fin.castLE hM k)) =
      fun k => (grids k).length := funext hdims
    rw [recDimprod_eq s.grids.length hM s.dims, hfun]
    · intro k hk
      have := hdims ⟨k, hk⟩
      have h2 := hv.min ⟨k, hk⟩
      have e : Fin.castLE hM ⟨k, hk⟩ = k := rfl
      rw [e] at this; omega
    · simp only [hdims]; exact hv.len ▸ hv.max
  have hsl : ∀ k, IsSlice (grids k) := fun k => (isSlice_iff _).2 (hv.dim_le (by omega) hs k)
  have hb : ∀ k, linCell (grids k) (x k) + 2 ≤ (grids k).length := fun k =>
    linCell_bound (hv.min k) _
  rw [MultilinearRectilinearRecursive.interpOne_form]
  rw [dif_pos ⟨by simp, hM⟩]
  simp only
  rw [hrec, Res.ok_bind, axisLoop_ok _ _ _ fun k => linCell (grids k) (x k), Res.ok_bind]
  · refine rec_ok (FP := 2) zero hv (by omega) hg (by omega) _ _
      (fun k v => lerp fma (cellPos (fun i => (grids k).getD i zero)
        (linCell (grids k) (x k)) (x k)) v) hb ?_
    intro k v
    rw [hgr' k]
    simp only [aget_fin, Res.ok_bind, List.getElem_ofFn]
    rw [lerpRectilinear_eq fma (hsl k) (hb k)]
  · intro k
    rw [hgr', hdims']
    simp only [aget_fin, Res.ok_bind, List.getElem_ofFn]
    rw [linGetLocRectilinear_eq (hv.min k) (hv.dim_le (by omega) hs k) (hsl k)]; rfl

end

/-! ### Nearest neighbour -/

/-- Node selected on a regular axis. -/
def nearRegAxis (fma : Bool) (dim : Nat) (start step x : T) : Option Nat :=
  (linRegAxis fma dim start step x).map fun a => a.1 + nearestOffset a.2

/-- Node selected on a rectilinear axis. -/
def nearRectAxis (grid : List T) (x : T) : Nat :=
  linCell grid x +
    nearestOffset (cellPos (fun i => grid.getD i zero) (linCell grid x) x)

theorem nearRegAxis_bound {fma : Bool} {dim : Nat} {start step x : T} {a : Nat}
    (h2 : 2 ≤ dim) (h : nearRegAxis fma dim start step x = some a) : a < dim := by
  unfold nearRegAxis at h
  rw [Option.map_eq_some_iff] at h
  obtain ⟨b, hb, rfl⟩ := h
  have := linRegAxis_bound h2 hb
  have := nearestOffset_le b.2
  omega

theorem nearRectAxis_bound {grid : List T} (h : 2 ≤ grid.length) (x : T) :
    nearRectAxis grid x < grid.length := by
  have := linCell_bound h x
  have := nearestOffset_le (cellPos (fun i => grid.getD i zero) (linCell grid x) x)
  unfold nearRectAxis
  omega

theorem NearestRegular.axis_eq (fma : Bool) (s : NearestRegular T N) (x : Fin N → T)
    (k : Fin N) (h2 : 2 ≤ s.dims k) (hd : (s.dims k : Int) ≤ isizeMax) :
    s.axis fma x k = match nearRegAxis fma (s.dims k) (s.starts k) (s.steps k) (x k) with
      | none => .err errRepr
      | some a => .ok a := by
  unfold NearestRegular.axis nearRegAxis linRegAxis
  simp only [aget_fin, Res.ok_bind]
  rw [linGetLocRegular_eq h2 hd]
  split
  · next h => simp [h]
  · next z h =>
    simp only [h, Res.ok_bind]
    cases (ofUsize (clampIdx z (s.dims k - 2)) : Option T) with
    | none => simp [errRepr]
    | some f =>
      simp only [Option.map_some]
      apply uadd_ok
      have := nearestOffset_le ((x k -. (if fma then mulAdd (s.steps k) f (s.starts k) else
        s.starts k +. s.steps k *. f)) /. s.steps k)
      have := clampIdx_le z (s.dims k - 2)
      simp only [isizeMax, usizeMax] at *
      omega

section
variable {s : NearestRegular T N} {x : Fin N → T} {g : (Fin N → Nat) → T}

theorem NearestRegular.interpOne_eq (fma : Bool)
    (hv : GoodVals 2 s.dims s.vals) (hs : IsSlice s.vals) (hg : Samples s.dims s.vals g) :
    s.interpOne fma x = (axisLoop N 0 (s.axis fma x) >>= fun a => .ok (g a)) := by
  rw [NearestRegular.interpOne_form]
  refine Eq.trans ?_ (pick_eq hv (by omega) hg (s.axis fma x) ?_)
  · rfl
  · intro k a ha
    rw [s.axis_eq fma x k (hv.min k) (hv.dim_le (by omega) hs k)] at ha
    split at ha
    · cases ha
    · next b hb => cases ha; exact nearRegAxis_bound (hv.min k) hb

theorem NearestRegular.interpOne_ok (fma : Bool)
    (hv : GoodVals 2 s.dims s.vals) (hs : IsSlice s.vals) (hg : Samples s.dims s.vals g)
    (a : Fin N → Nat)
    (ha : ∀ k, nearRegAxis fma (s.dims k) (s.starts k) (s.steps k) (x k) = some (a k)) :
    s.interpOne fma x = .ok (g a) := by
  rw [interpOne_eq fma hv hs hg, axisLoop_ok N _ _ a, Res.ok_bind]
  intro k
  rw [s.axis_eq fma x k (hv.min k) (hv.dim_le (by omega) hs k), ha k]

theorem NearestRegular.interpOne_err (fma : Bool)
    (hv : GoodVals 2 s.dims s.vals) (hs : IsSlice s.vals)
    (ha : ∃ k, nearRegAxis fma (s.dims k) (s.starts k) (s.steps k) (x k) = none) :
    s.interpOne fma x = .err errRepr := by
  obtain ⟨k, hk⟩ := ha
  rw [interpOne_eq fma hv hs (samples_valAt zero _ _ hv.len),
    axisLoop_err _ _ errRepr (fun k => ?_) k, Res.err_bind]
  · rw [s.axis_eq fma x k (hv.min k) (hv.dim_le (by omega) hs k), hk]
  · rw [s.axis_eq fma x k (hv.min k) (hv.dim_le (by omega) hs k)]
    cases nearRegAxis fma (s.dims k) (s.starts k) (s.steps k) (x k) <;> simp

end

theorem NearestRectilinear.interpOne_ok {s : NearestRectilinear T N} {x : Fin N → T}
    {g : (Fin N → Nat) → T} (hd : ∀ k, s.dims k = (s.grids k).length)
    (hv : GoodVals 2 s.dims s.vals) (hs : IsSlice s.vals) (hg : Samples s.dims s.vals g) :
    s.interpOne x = .ok (g fun k => nearRectAxis (s.grids k) (x k)) := by
  have hsl : ∀ k, IsSlice (s.grids k) := fun k => by
    have := hv.dim_le (by omega) hs k
    rw [hd k] at this; exact (isSlice_iff _).2 this
  have hmin : ∀ k, 2 ≤ (s.grids k).length := fun k => by rw [← hd k]; exact hv.min k
  have hax : ∀ k : Fin N, s.axis x k = .ok (nearRectAxis (s.grids k) (x k)) := by
    intro k
    have hb := linCell_bound (hmin k) (x k)
    have hn := nearRectAxis_bound (hmin k) (x k)
    have hsk := hsl k
    rw [isSlice_iff] at hsk
    simp only [isizeMax] at hsk
    unfold NearestRectilinear.axis
    simp only [aget_fin, Res.ok_bind]
    rw [linGetLocRectilinear_eq (hv.min k) (hv.dim_le (by omega) hs k) (hsl k), hd k]
    change (do
      let x0 ← lget (s.grids k) (linCell (s.grids k) (x k))
      let x1 ← lget (s.grids k) (← uadd (linCell (s.grids k) (x k)) 1)
      uadd (linCell (s.grids k) (x k)) (nearestOffset ((x k -. x0) /. (x1 -. x0)))) = _
    rw [lget_lt _ (by omega), Res.ok_bind, uadd_ok (by simp only [usizeMax]; omega), Res.ok_bind,
      lget_lt _ (by omega), Res.ok_bind]
    unfold nearRectAxis cellPos at hn ⊢
    simp only at hn ⊢
    rw [List.getD_eq_getElem _ _ (by omega), List.getD_eq_getElem _ _ (by omega)] at hn ⊢
    apply uadd_ok
    simp only [usizeMax]; omega
  rw [NearestRectilinear.interpOne_form]
  refine Eq.trans ?_ ((pick_eq hv (by omega) hg (s.axis x) ?_).trans ?_)
  · rfl
  · intro k a ha
    rw [hax k] at ha; cases ha
    rw [hd k]; exact nearRectAxis_bound (hmin k) _
  · rw [axisLoop_ok N _ _ _ hax, Res.ok_bind]

end Interpn
