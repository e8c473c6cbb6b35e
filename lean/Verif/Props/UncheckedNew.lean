import Verif.Lemmas.UncheckedAgree
import Verif.Spec.Unchecked
import Verif.Props.Constructors
import Verif.Props.Unchecked
import Verif.Lemmas.IeeeExamples

/-! C110: what constructors accept, and what can go wrong, without overflow checks. -/

set_option autoImplicit false

namespace Interpn
open FloatOps

/-! #### Helpers -/

theorem uprodFrom_wrap (ds : List Nat) : ∀ acc : Nat, acc < 2 ^ 64 →
    Unchecked.uprodFrom acc ds = .ok (acc * ds.prod % 2 ^ 64) := by
  induction ds with
  | nil =>
    intro acc h
    rw [List.prod_nil, Nat.mul_one, Nat.mod_eq_of_lt h]; rfl
  | cons d ds ih =>
    intro acc _
    show Unchecked.uprodFrom (acc * d % 2 ^ 64) ds = _
    rw [ih _ (Nat.mod_lt _ (by decide)), List.prod_cons, Nat.mod_mul_mod, Nat.mul_assoc]

theorem uprod_wrap (ds : List Nat) : Unchecked.uprod ds = .ok (ds.prod % 2 ^ 64) := by
  unfold Unchecked.uprod
  rw [uprodFrom_wrap ds 1 (by decide), Nat.one_mul]

section
variable {T : Type} [FloatOps T] {N M : Nat}

theorem allFirstPairs_false {m : Nat} (hm : 2 ≤ m) {grids : List (List T)}
    (h2 : ∀ g ∈ grids, m ≤ g.length) (h3 : ∃ g ∈ grids, ¬ SecondExceedsFirst g) :
    allFirstPairs grids = .ok false := by
  obtain ⟨b, hb, hiff⟩ := allFirstPairs_eq grids (fun g hg => le_trans hm (h2 g hg))
  cases b
  · exact hb
  · obtain ⟨g, hg, hn⟩ := h3
    exact absurd ((secondExceedsFirst_iff g).2 (hiff.1 rfl g hg)) hn

theorem allFirstPairs_true {m : Nat} (hm : 2 ≤ m) {grids : List (List T)}
    (h2 : ∀ g ∈ grids, m ≤ g.length) (h3 : ∀ g ∈ grids, SecondExceedsFirst g) :
    allFirstPairs grids = .ok true := by
  obtain ⟨b, hb, hiff⟩ := allFirstPairs_eq grids (fun g hg => le_trans hm (h2 g hg))
  rw [hb, hiff.2 fun g hg => (secondExceedsFirst_iff g).1 (h3 g hg)]

theorem RegularNewSpec.ne_panic {m : Nat} {msg : String} {dims : List Nat} {steps vals : List T}
    {α : Type} {r : Res α} {a : α} (h : RegularNewSpec m msg dims steps vals r (.ok a))
    (hf : ProductFits dims) : r ≠ .panic := by
  by_cases h1 : vals.length = dims.prod
  · by_cases h2 : ∀ d ∈ dims, m ≤ d
    · by_cases h3 : ∀ h ∈ steps, (zero <. h) = true
      · rw [h.ok hf h1 h2 h3]; exact fun h => nomatch h
      · rw [h.step hf h1 h2 (by push Not at h3; simpa using h3)]; exact fun h => nomatch h
    · rw [h.small hf h1 (by push Not at h2; exact h2)]; exact fun h => nomatch h
  · rw [h.mismatch hf h1]; exact fun h => nomatch h

theorem RectilinearNewSpec.ne_panic {m : Nat} {msg : String} {grids : List (List T)}
    {vals : List T} {α : Type} {r : Res α} {a : α}
    (h : RectilinearNewSpec m msg grids vals r (.ok a))
    (hf : ProductFits (grids.map List.length)) : r ≠ .panic := by
  by_cases h1 : vals.length = (grids.map List.length).prod
  · by_cases h2 : ∀ g ∈ grids, m ≤ g.length
    · by_cases h3 : ∀ g ∈ grids, SecondExceedsFirst g
      · rw [h.ok hf h1 h2 h3]; exact fun h => nomatch h
      · rw [h.order hf h1 h2 (by push Not at h3; exact h3)]; exact fun h => nomatch h
    · rw [h.small hf h1 (by push Not at h2; exact h2)]; exact fun h => nomatch h
  · rw [h.mismatch hf h1]; exact fun h => nomatch h

/-! #### C110, constructors -/

/-- C110, `MultilinearRegular::new`. -/
theorem C110_multilinear_regular (dims : Fin N → Nat) (starts steps : Fin N → T) (vals : List T) :
    WrappedRegularNewSpec 2 "All grids must have at least two entries" (List.ofFn dims)
      (List.ofFn steps) vals (Unchecked.MultilinearRegular.new dims starts steps vals)
      (.ok { dims, starts, steps, vals }) where
  mismatch h := by
    unfold Unchecked.MultilinearRegular.new; rw [uprod_wrap, Res.ok_bind, if_pos h]
  small h h1 := by
    unfold Unchecked.MultilinearRegular.new
    rw [uprod_wrap, Res.ok_bind, if_neg (not_not.2 h), if_pos (by simpa using h1)]
  step h h1 h2 := by
    unfold Unchecked.MultilinearRegular.new
    rw [uprod_wrap, Res.ok_bind, if_neg (not_not.2 h), if_neg (by simpa using h1),
      if_pos (by simpa using h2)]
  ok h h1 h2 := by
    unfold Unchecked.MultilinearRegular.new
    rw [uprod_wrap, Res.ok_bind, if_neg (not_not.2 h), if_neg (by simpa using h1),
      if_neg (by simpa using h2)]; rfl

/-- C110, `NearestRegular::new`. -/
theorem C110_nearest_regular (dims : Fin N → Nat) (starts steps : Fin N → T) (vals : List T) :
    WrappedRegularNewSpec 2 "All grids must have at least two entries" (List.ofFn dims)
      (List.ofFn steps) vals (Unchecked.NearestRegular.new dims starts steps vals)
      (.ok { dims, starts, steps, vals }) where
  mismatch h := by
    unfold Unchecked.NearestRegular.new; rw [uprod_wrap, Res.ok_bind, if_pos h]
  small h h1 := by
    unfold Unchecked.NearestRegular.new
    rw [uprod_wrap, Res.ok_bind, if_neg (not_not.2 h), if_pos (by simpa using h1)]
  step h h1 h2 := by
    unfold Unchecked.NearestRegular.new
    rw [uprod_wrap, Res.ok_bind, if_neg (not_not.2 h), if_neg (by simpa using h1),
      if_pos (by simpa using h2)]
  ok h h1 h2 := by
    unfold Unchecked.NearestRegular.new
    rw [uprod_wrap, Res.ok_bind, if_neg (not_not.2 h), if_neg (by simpa using h1),
      if_neg (by simpa using h2)]; rfl

/-- C110, `MulticubicRegular::new`. -/
theorem C110_multicubic_regular (dims : Fin N → Nat) (starts steps : Fin N → T) (vals : List T)
    (lin : Bool) :
    WrappedRegularNewSpec 4 "All grids must have at least four entries" (List.ofFn dims)
      (List.ofFn steps) vals (Unchecked.MulticubicRegular.new dims starts steps vals lin)
      (.ok { dims, starts, steps, vals, lin }) where
  mismatch h := by
    unfold Unchecked.MulticubicRegular.new; rw [uprod_wrap, Res.ok_bind, if_pos h]
  small h h1 := by
    unfold Unchecked.MulticubicRegular.new
    rw [uprod_wrap, Res.ok_bind, if_neg (not_not.2 h), if_pos (by simpa using h1)]
  step h h1 h2 := by
    unfold Unchecked.MulticubicRegular.new
    rw [uprod_wrap, Res.ok_bind, if_neg (not_not.2 h), if_neg (by simpa using h1),
      if_pos (by simpa using h2)]
  ok h h1 h2 := by
    unfold Unchecked.MulticubicRegular.new
    rw [uprod_wrap, Res.ok_bind, if_neg (not_not.2 h), if_neg (by simpa using h1),
      if_neg (by simpa using h2)]; rfl

/-- C110, `MultilinearRectilinear::new`. -/
theorem C110_multilinear_rectilinear (grids : Fin N → List T) (vals : List T) :
    WrappedRectilinearNewSpec 2 "All grids must have at least 2 entries" (List.ofFn grids) vals
      (Unchecked.MultilinearRectilinear.new grids vals)
      (.ok { grids, dims := fun k => (grids k).length, vals }) := by
  unfold Unchecked.MultilinearRectilinear.new
  rw [dimsLoop_form, Res.ok_bind, ofFn_length_form, allRes_form, uprod_wrap, Res.ok_bind]
  refine ⟨fun h => if_pos h, fun h h1 => ?_, fun h h1 h2 => ?_, fun h h1 h2 => ?_⟩
  · rw [if_neg (not_not.2 h), if_pos (by simpa using h1)]
  · rw [if_neg (not_not.2 h), if_neg (by simpa using h1), allFirstPairs_false le_rfl h1 h2]; rfl
  · rw [if_neg (not_not.2 h), if_neg (by simpa using h1), allFirstPairs_true le_rfl h1 h2]; rfl

/-- C110, `NearestRectilinear::new`. -/
theorem C110_nearest_rectilinear (grids : Fin N → List T) (vals : List T) :
    WrappedRectilinearNewSpec 2 "All grids must have at least 2 entries" (List.ofFn grids) vals
      (Unchecked.NearestRectilinear.new grids vals)
      (.ok { grids, dims := fun k => (grids k).length, vals }) := by
  unfold Unchecked.NearestRectilinear.new
  rw [dimsLoop_form, Res.ok_bind, ofFn_length_form, allRes_form, uprod_wrap, Res.ok_bind]
  refine ⟨fun h => if_pos h, fun h h1 => ?_, fun h h1 h2 => ?_, fun h h1 h2 => ?_⟩
  · rw [if_neg (not_not.2 h), if_pos (by simpa using h1)]
  · rw [if_neg (not_not.2 h), if_neg (by simpa using h1), allFirstPairs_false le_rfl h1 h2]; rfl
  · rw [if_neg (not_not.2 h), if_neg (by simpa using h1), allFirstPairs_true le_rfl h1 h2]; rfl

/-- C110, `MulticubicRectilinear::new`. -/
theorem C110_multicubic_rectilinear (grids : Fin N → List T) (vals : List T) (lin : Bool) :
    WrappedRectilinearNewSpec 4 "All grids must have at least 4 entries" (List.ofFn grids) vals
      (Unchecked.MulticubicRectilinear.new grids vals lin)
      (.ok { grids, dims := fun k => (grids k).length, vals, lin }) := by
  unfold Unchecked.MulticubicRectilinear.new
  rw [dimsLoop_form, Res.ok_bind, ofFn_length_form, allRes_form, uprod_wrap, Res.ok_bind]
  refine ⟨fun h => if_pos h, fun h h1 => ?_, fun h h1 h2 => ?_, fun h h1 h2 => ?_⟩
  · rw [if_neg (not_not.2 h), if_pos (by simpa using h1)]
  · rw [if_neg (not_not.2 h), if_neg (by simpa using h1), allFirstPairs_false (by omega) h1 h2]; rfl
  · rw [if_neg (not_not.2 h), if_neg (by simpa using h1), allFirstPairs_true (by omega) h1 h2]; rfl

/-- C110, `MultilinearRegularRecursive::new` with matching lengths and at most `MAXDIMS` axes. -/
theorem C110_multilinear_regular_recursive (dims : List Nat) (starts steps vals : List T)
    (h1 : starts.length = dims.length) (h2 : steps.length = dims.length) (h0 : dims ≠ [])
    (hM : dims.length ≤ M) :
    WrappedRegularNewSpec 2 "All grids must have at least two entries" dims steps vals
      (Unchecked.MultilinearRegularRecursive.new M dims starts steps vals)
      (.ok ⟨dims.length, fun k => dims.getD k 0, fun k => starts.getD k zero,
        fun k => steps.getD k zero, vals⟩) := by
  have h0' := List.length_pos_iff.2 h0
  unfold Unchecked.MultilinearRegularRecursive.new
  rw [uprod_wrap, Res.ok_bind]
  simp only [h1, h2, h0', decide_true, Bool.true_and, Bool.and_true, Bool.not_eq_true',
    decide_eq_false_iff_not]
  rw [padTo_ok _ _ (by omega), padTo_ok _ _ (by omega), padTo_ok _ _ hM]
  refine ⟨fun h => if_pos h, fun h h1 => ?_, fun h h1 h2 => ?_, fun h h1 h2 => ?_⟩
  · rw [if_neg (not_not.2 h), if_pos (by simpa using h1)]
  · rw [if_neg (not_not.2 h), if_neg (by simpa using h1), if_pos (by simpa using h2)]
  · rw [if_neg (not_not.2 h), if_neg (by simpa using h1), if_neg (by simpa using h2)]; rfl

/-- C110, `MulticubicRegularRecursive::new` with matching lengths and at most `MAXDIMS` axes. -/
theorem C110_multicubic_regular_recursive (dims : List Nat) (starts steps vals : List T)
    (lin : Bool)
    (h1 : starts.length = dims.length) (h2 : steps.length = dims.length) (h0 : dims ≠ [])
    (hM : dims.length ≤ M) :
    WrappedRegularNewSpec 4 "All grids must have at least four entries" dims steps vals
      (Unchecked.MulticubicRegularRecursive.new M dims starts steps vals lin)
      (.ok ⟨dims.length, fun k => dims.getD k 0, fun k => starts.getD k zero,
        fun k => steps.getD k zero, vals, lin⟩) := by
  have h0' := List.length_pos_iff.2 h0
  unfold Unchecked.MulticubicRegularRecursive.new
  rw [uprod_wrap, Res.ok_bind]
  simp only [h1, h2, h0', decide_true, Bool.true_and, Bool.and_true, Bool.not_eq_true',
    decide_eq_false_iff_not]
  rw [padTo_ok _ _ (by omega), padTo_ok _ _ (by omega), padTo_ok _ _ hM]
  refine ⟨fun h => if_pos h, fun h h1 => ?_, fun h h1 h2 => ?_, fun h h1 h2 => ?_⟩
  · rw [if_neg (not_not.2 h), if_pos (by simpa using h1)]
  · rw [if_neg (not_not.2 h), if_neg (by simpa using h1), if_pos (by simpa using h2)]
  · rw [if_neg (not_not.2 h), if_neg (by simpa using h1), if_neg (by simpa using h2)]; rfl

/-- C110, `MultilinearRectilinearRecursive::new` with `1..=MAXDIMS` grids. -/
theorem C110_multilinear_rectilinear_recursive (grids : List (List T)) (vals : List T)
    (h0 : grids ≠ []) (hM : grids.length ≤ M) :
    WrappedRectilinearNewSpec 2 "All grids must have at least 2 entries" grids vals
      (Unchecked.MultilinearRectilinearRecursive.new M grids vals)
      (.ok { grids, dims := fun k => (grids.map List.length).getD k 1, vals }) := by
  have h0' := List.length_pos_iff.2 h0
  have hp := padTo_ok (M := M) 1 (grids.map List.length) (by simpa using hM)
  unfold Unchecked.MultilinearRectilinearRecursive.new
  simp only
  rw [dimsLoopRec_form, hp, Res.ok_bind, take_padTo_form hp, allRes_form, uprod_wrap, Res.ok_bind]
  simp only [h0', hM, decide_true, Bool.and_true, Bool.not_eq_true', decide_eq_false_iff_not]
  refine ⟨fun h => if_pos h, fun h h1 => ?_, fun h h1 h2 => ?_, fun h h1 h2 => ?_⟩
  · rw [if_neg (not_not.2 h), if_pos (by simpa using h1)]
  · rw [if_neg (not_not.2 h), if_neg (by simpa using h1), allFirstPairs_false le_rfl h1 h2]; rfl
  · rw [if_neg (not_not.2 h), if_neg (by simpa using h1), allFirstPairs_true le_rfl h1 h2]; rfl

/-- C110, `MulticubicRectilinearRecursive::new` with `1..=MAXDIMS` grids. -/
theorem C110_multicubic_rectilinear_recursive (grids : List (List T)) (vals : List T) (lin : Bool)
    (h0 : grids ≠ []) (hM : grids.length ≤ M) :
    WrappedRectilinearNewSpec 4 "All grids must have at least 4 entries" grids vals
      (Unchecked.MulticubicRectilinearRecursive.new M grids vals lin)
      (.ok { grids, dims := fun k => (grids.map List.length).getD k 1, vals, lin }) := by
  have h0' := List.length_pos_iff.2 h0
  have hp := padTo_ok (M := M) 1 (grids.map List.length) (by simpa using hM)
  unfold Unchecked.MulticubicRectilinearRecursive.new
  simp only
  rw [dimsLoopRec_form, hp, Res.ok_bind, take_padTo_form hp, allRes_form, uprod_wrap, Res.ok_bind]
  simp only [h0', hM, decide_true, Bool.and_true, Bool.not_eq_true', decide_eq_false_iff_not]
  refine ⟨fun h => if_pos h, fun h h1 => ?_, fun h h1 h2 => ?_, fun h h1 h2 => ?_⟩
  · rw [if_neg (not_not.2 h), if_pos (by simpa using h1)]
  · rw [if_neg (not_not.2 h), if_neg (by simpa using h1), allFirstPairs_false (by omega) h1 h2]; rfl
  · rw [if_neg (not_not.2 h), if_neg (by simpa using h1), allFirstPairs_true (by omega) h1 h2]; rfl

/-- C110: where the product of the dimensions fits, the two builds construct alike. -/
theorem C110_regular_fits {dims : Fin N → Nat} (hf : ProductFits (List.ofFn dims))
    (starts steps : Fin N → T) (vals : List T) (lin : Bool) :
    Unchecked.MultilinearRegular.new dims starts steps vals =
      MultilinearRegular.new dims starts steps vals ∧
    Unchecked.NearestRegular.new dims starts steps vals =
      NearestRegular.new dims starts steps vals ∧
    Unchecked.MulticubicRegular.new dims starts steps vals lin =
      MulticubicRegular.new dims starts steps vals lin :=
  ⟨(C109_multilinear_regular false ..).1 ((C08_multilinear_regular ..).ne_panic hf),
    (C109_nearest_regular false ..).1 ((C08_nearest_regular ..).ne_panic hf),
    (C109_multicubic_regular false ..).1 ((C08_multicubic_regular ..).ne_panic hf)⟩

/-- C110: the same for rectilinear grids. -/
theorem C110_rectilinear_fits {grids : Fin N → List T}
    (hf : ProductFits ((List.ofFn grids).map List.length)) (vals : List T) (lin : Bool) :
    Unchecked.MultilinearRectilinear.new grids vals = MultilinearRectilinear.new grids vals ∧
    Unchecked.NearestRectilinear.new grids vals = NearestRectilinear.new grids vals ∧
    Unchecked.MulticubicRectilinear.new grids vals lin =
      MulticubicRectilinear.new grids vals lin :=
  ⟨(C109_multilinear_rectilinear false ..).1 ((C08_multilinear_rectilinear ..).ne_panic hf),
    (C109_nearest_rectilinear ..).1 ((C08_nearest_rectilinear ..).ne_panic hf),
    (C109_multicubic_rectilinear false ..).1 ((C08_multicubic_rectilinear ..).ne_panic hf)⟩

/-! #### C110, other places where only the checked build panics -/

/-- C110: `linspace` for no points is empty instead of a panic. -/
theorem C110_linspace_zero (hT : TotalOfUsize T) (start stop : T) :
    linspace start stop 0 = .panic ∧ Unchecked.linspace start stop 0 = .ok [] := by
  refine ⟨rfl, ?_⟩
  obtain ⟨f, hf⟩ := hT (2 ^ 64 - 1) (by decide)
  have hw : Unchecked.usub 0 1 = .ok (2 ^ 64 - 1) := by decide
  unfold Unchecked.linspace ofUsizeUnwrap
  rw [hw, Res.ok_bind, hf]
  rfl

/-- C110: a regular 1-D grid without values is constructed instead of a panic; sampling it
panics. -/
theorem C110_regular1d_empty (hT : TotalOfUsize T) (start step : T) :
    RegularGrid1D.new start step [] = .panic ∧
    ∃ g, Unchecked.RegularGrid1D.new start step [] = .ok g ∧
      ∀ x, toIsize (floor ((x -. start) /. step)) ≠ none →
        Unchecked.RegularGrid1D.at g x = .panic := by
  refine ⟨rfl, ?_⟩
  obtain ⟨f, hf⟩ := hT (2 ^ 64 - 1) (by decide)
  obtain ⟨f2, hf2⟩ := hT (2 ^ 64 - 2) (by decide)
  have hw : Unchecked.usub (List.length ([] : List T)) 1 = .ok (2 ^ 64 - 1) := by
    rw [List.length_nil]; decide
  refine ⟨⟨start, start +. step *. f, step, []⟩, ?_, fun x hx => ?_⟩
  · unfold Unchecked.RegularGrid1D.new
    rw [hw, Res.ok_bind, hf]; rfl
  · obtain ⟨z, hz⟩ := Option.ne_none_iff_exists'.1 hx
    have hi : asUsize (min (max z 0) (asIsize (0 + 2 ^ 64 - 2))) = 2 ^ 64 - 2 := by
      have : asIsize (0 + 2 ^ 64 - 2) = -2 := by decide
      rw [this, min_eq_right (by omega)]; decide
    simp only [Unchecked.RegularGrid1D.at, Unchecked.RegularGrid1D.index, hz, Unchecked.usub,
      List.length_nil]
    rw [if_neg (by decide)]
    simp only [Res.ok_bind]
    rw [hi]
    simp only [pure, Res.ok_bind, hf2]
    rfl

end

/-! #### C110, witnesses in `f64` -/

/-- C110: `274177 * 67280421310721 = 2^64 + 1`, so one value passes for a table of that shape.
The nearest-neighbor interpolator then returns it at the last node, whose flat index wraps to
0, and panics at the node after the first; the checked build refuses the shape. -/
theorem C110_wrapped_shape :
    NearestRegular.new (T := F64) ![274177, 67280421310721] ![q64 0, q64 0] ![q64 1, q64 1]
      [q64 7] = .panic ∧
    ∃ s, Unchecked.NearestRegular.new (T := F64) ![274177, 67280421310721] ![q64 0, q64 0]
        ![q64 1, q64 1] [q64 7] = .ok s ∧
      Unchecked.NearestRegular.interpOne false s ![q64 274176, q64 67280421310720] =
        .ok (q64 7) ∧
      Unchecked.NearestRegular.interpOne false s ![q64 0, q64 1] = .panic := by
  refine ⟨?_, ⟨![274177, 67280421310721], ![q64 0, q64 0], ![q64 1, q64 1], [q64 7]⟩, ?_, ?_, ?_⟩
  · rfl
  · exact (C110_nearest_regular ..).ok (by decide) (by decide +kernel) (by decide +kernel)
  · decide +kernel
  · decide +kernel

/-- C110: cubic interpolation on nodes 0, 1, 2, 3 of the values 0, 0, 0, 1, with linearized
extrapolation. Far below the grid the result is 0; at `-2^63`, where the checked build panics,
the unchecked one extrapolates from the upper end instead. -/
theorem C110_cubic_far_low :
    ∃ s, Unchecked.MulticubicRegular.new (T := F64) ![4] ![q64 0] ![q64 1]
        [q64 0, q64 0, q64 0, q64 1] true = .ok s ∧
      Unchecked.MulticubicRegular.interpOne false s ![q64 (-(2 ^ 63) + 1024)] = .ok (q64 0) ∧
      s.interpOne false ![q64 (-(2 ^ 63))] = .panic ∧
      Unchecked.MulticubicRegular.interpOne false s ![q64 (-(2 ^ 63))] =
        .ok (q64 (-(3 * 2 ^ 62))) := by
  refine ⟨⟨![4], ![q64 0], ![q64 1], [q64 0, q64 0, q64 0, q64 1], true⟩, ?_, ?_, ?_, ?_⟩
  · exact (C110_multicubic_regular ..).ok (by decide +kernel) (by decide +kernel)
      (by decide +kernel)
  · decide +kernel
  · decide +kernel
  · decide +kernel

/-! #### Concrete cases for C110 -/

section
attribute [local instance] ratOps

/-- No values at all pass for `2^32 * 2^32` of them, in the checked build they do not. -/
example : (∃ s, Unchecked.MultilinearRegular.new (T := ℚ) ![2 ^ 32, 2 ^ 32] ![0, 0] ![1, 1] [] =
      .ok s ∧ Unchecked.MultilinearRegular.interpOne false s ![1, 1] = .panic) ∧
    MultilinearRegular.new (T := ℚ) ![2 ^ 32, 2 ^ 32] ![0, 0] ![1, 1] [] = .panic :=
  ⟨⟨_, (C110_multilinear_regular ..).ok (by decide) (by decide) (by decide +kernel),
    by decide +kernel⟩, rfl⟩
example : ∃ s, Unchecked.MulticubicRegular.new (T := ℚ) ![2 ^ 32, 2 ^ 32] ![0, 0] ![1, 1] [] true =
    .ok s ∧ Unchecked.MulticubicRegular.interpOne false s ![1, 1] = .panic :=
  ⟨_, (C110_multicubic_regular ..).ok (by decide) (by decide) (by decide +kernel),
    by decide +kernel⟩
example : ∃ s, Unchecked.MultilinearRegularRecursive.new (T := ℚ) 4 [2 ^ 32, 2 ^ 32] [0, 0] [1, 1]
    [] = .ok s ∧ Unchecked.MultilinearRegularRecursive.interpOne false s [1, 1] = .panic :=
  ⟨_, rfl, by decide +kernel⟩
example : ∃ s, Unchecked.MulticubicRegularRecursive.new (T := ℚ) 4 [2 ^ 32, 2 ^ 32] [0, 0] [1, 1]
    [] true = .ok s ∧ Unchecked.MulticubicRegularRecursive.interpOne false s [1, 1] = .panic :=
  ⟨_, rfl, by decide +kernel⟩

/-- A product that wraps to a wrong number is a mismatch, not a panic. -/
example : Unchecked.MultilinearRegular.new (T := ℚ) ![2 ^ 32, 2 ^ 32 + 1] ![0, 0] ![1, 1] [3] =
    .err "Dimension mismatch" := (C110_multilinear_regular ..).mismatch (by decide)

/-- Shapes that fit. -/
example : ProductFits (List.ofFn ![2, 3]) := by unfold ProductFits; decide
example : ProductFits ((List.ofFn ![[(0 : ℚ), 1], [1, 3, 4]]).map List.length) := by
  unfold ProductFits; decide
example : ∃ s, Unchecked.MultilinearRectilinear.new (T := ℚ) ![[0, 1], [1, 3, 4]]
    [1, 2, 3, 4, 5, 6] = .ok s :=
  ⟨_, (C110_multilinear_rectilinear ..).ok (by decide) (by decide)
    (by simp only [List.ofFn_succ, List.ofFn_zero, List.mem_cons, List.not_mem_nil, or_false,
          forall_eq_or_imp, forall_eq]
        exact ⟨⟨_, _, _, rfl, by decide +kernel⟩, ⟨_, _, _, rfl, by decide +kernel⟩⟩)⟩
example : TotalOfUsize ℚ := totalOfUsize_exact
example : toIsize (floor (((1 : ℚ) -. 0) /. 1)) ≠ none := by decide +kernel

end

/-- Four axes of 65536 coordinates each and no values (for any element type): the rectilinear constructors accept. -/
example {T : Type} [FloatOps T] (g : List T) (hg : g.length = 2 ^ 16) (ho : SecondExceedsFirst g)
    (vals : List T) (h0 : vals = []) :
    (∃ s, Unchecked.MultilinearRectilinear.new (fun _ : Fin 4 => g) vals = .ok s) ∧
    (∃ s, Unchecked.NearestRectilinear.new (fun _ : Fin 4 => g) vals = .ok s) ∧
    ∃ s, Unchecked.MulticubicRectilinear.new (fun _ : Fin 4 => g) vals true = .ok s := by
  subst h0
  have h1 : ([] : List T).length =
      ((List.ofFn fun _ : Fin 4 => g).map List.length).prod % 2 ^ 64 := by
    simp [hg]
  have h2 : ∀ x ∈ List.ofFn fun _ : Fin 4 => g, 4 ≤ x.length := by simp [hg]
  have h3 : ∀ x ∈ List.ofFn fun _ : Fin 4 => g, SecondExceedsFirst x := by simp [ho]
  exact ⟨⟨_, (C110_multilinear_rectilinear ..).ok h1 (fun x hx => by have := h2 x hx; omega) h3⟩,
    ⟨_, (C110_nearest_rectilinear ..).ok h1 (fun x hx => by have := h2 x hx; omega) h3⟩,
    ⟨_, (C110_multicubic_rectilinear ..).ok h1 h2 h3⟩⟩

end Interpn
