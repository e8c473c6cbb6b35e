import Verif.Lemmas.Api
import Verif.Lemmas.TensorAlg
import Verif.Lemmas.Poison
import Verif.Lemmas.OneDim
import Verif.Spec.DataRel

/-! A relation between data that the operations applied to data preserve is preserved by every
interpolator. -/

set_option autoImplicit false

namespace Interpn
open FloatOps

variable {T : Type} [FloatOps T] {N : Nat}

/-- `R` is preserved by the operations applied to data; the other operand `c` of a product or
quotient is a coordinate or a constant. -/
structure DataRel (R : T → T → Prop) : Prop where
  add : ∀ {a a' b b'}, R a a' → R b b' → R (a +. b) (a' +. b')
  sub : ∀ {a a' b b'}, R a a' → R b b' → R (a -. b) (a' -. b')
  neg : ∀ {a a'}, R a a' → R (-. a) (-. a')
  mulL : ∀ {a a'} (c : T), R a a' → R (c *. a) (c *. a')
  mulR : ∀ {a a'} (c : T), R a a' → R (a *. c) (a' *. c)
  div : ∀ {a a'} (c : T), R a a' → R (a /. c) (a' /. c)
  fmaL : ∀ {a a' b b'} (c : T), R a a' → R b b' → R (mulAdd c a b) (mulAdd c a' b')
  fmaR : ∀ {a a' b b'} (c : T), R a a' → R b b' → R (mulAdd a c b) (mulAdd a' c b')

namespace DataRel
variable {R : T → T → Prop} (h : DataRel R)
include h

theorem lerp (fma : Bool) (t : T) {v v' : Fin 2 → T} (hv : ∀ p, R (v p) (v' p)) :
    R (lerp fma t v) (Interpn.lerp fma t v') := by
  unfold Interpn.lerp
  cases fma
  · exact h.add (hv 0) (h.mulL _ (h.sub (hv 1) (hv 0)))
  · exact h.fmaL _ (h.sub (hv 1) (hv 0)) (hv 0)

theorem hermite (fma : Bool) (t : T) {y0 dy k0 k1 y0' dy' k0' k1' : T} (hy : R y0 y0')
    (hd : R dy dy') (h0 : R k0 k0') (h1 : R k1 k1') :
    R (hermite fma t y0 dy k0 k1) (Interpn.hermite fma t y0' dy' k0' k1') := by
  unfold Interpn.hermite
  have ha := h.sub h0 hd
  have hb := h.add (h.neg h1) hd
  have hc1 := h.add hd ha
  have hc2 := h.sub hb (h.add ha ha)
  have hc3 := h.sub ha hb
  cases fma
  · exact h.add hy (h.mulL _ (h.add hc1 (h.mulL _ (h.add hc2 (h.mulL _ hc3)))))
  · exact h.fmaR _ (h.fmaR _ (h.fmaR _ hc3 hc2) hc1) hy

theorem naturalK1 (fma : Bool) (c : T) {dy k0 dy' k0' : T} (hd : R dy dy') (h0 : R k0 k0') :
    R (naturalK1 fma c dy k0) (Interpn.naturalK1 fma c dy' k0') := by
  unfold Interpn.naturalK1
  cases fma
  · exact h.sub (h.mulL _ hd) h0
  · exact h.fmaL _ hd (h.neg h0)

theorem linExtrap (fma : Bool) (t : T) {y1 k1 y1' k1' : T} (hy : R y1 y1') (h1 : R k1 k1') :
    R (linExtrap fma y1 k1 t) (Interpn.linExtrap fma y1' k1' t) := by
  unfold Interpn.linExtrap
  cases fma
  · exact h.add hy (h.mulR _ h1)
  · exact h.fmaR _ h1 hy

theorem centeredDiff (fma : Bool) (h01 h12 : T) {y0 y1 y2 y0' y1' y2' : T} (e0 : R y0 y0')
    (e1 : R y1 y1') (e2 : R y2 y2') :
    R (centeredDiff fma y0 y1 y2 h01 h12) (Interpn.centeredDiff fma y0' y1' y2' h01 h12) := by
  unfold Interpn.centeredDiff
  have hb := h.div h12 (h.sub e2 e1)
  have hd := h.mulL (h12 /. (h12 +. h01)) (h.div h01 (h.sub e1 e0))
  cases fma
  · exact h.add (h.mulL _ hb) hd
  · exact h.fmaL _ hb hd

theorem cubicInnerRegular (fma fl : Bool) (t : T) (sat : Saturation) (lin : Bool)
    {v v' : Fin 4 → T} (hv : ∀ p, R (v p) (v' p)) :
    R (cubicInnerRegular fma fl v t sat lin) (Interpn.cubicInnerRegular fma fl v' t sat lin) := by
  unfold Interpn.cubicInnerRegular
  cases sat
  · exact h.hermite _ _ (hv 1) (h.sub (hv 2) (hv 1)) (h.div _ (h.sub (hv 2) (hv 0)))
      (h.div _ (h.sub (hv 3) (hv 1)))
  · have hd := h.sub (hv 0) (hv 1)
    have h0 := h.div (one +. one) (h.neg (h.sub (hv 2) (hv 0)))
    exact h.hermite _ _ (hv 1) hd h0 (h.naturalK1 _ _ hd h0)
  · have hd := h.sub (hv 0) (hv 1)
    have h0 := h.div (one +. one) (h.neg (h.sub (hv 2) (hv 0)))
    have h1 := h.naturalK1 fl (one +. one) hd h0
    cases lin
    · exact h.hermite _ _ (hv 1) hd h0 h1
    · exact h.linExtrap _ _ (hv 0) h1
  · have hd := h.sub (hv 3) (hv 2)
    have h0 := h.div (one +. one) (h.sub (hv 3) (hv 1))
    exact h.hermite _ _ (hv 2) hd h0 (h.naturalK1 _ _ hd h0)
  · have hd := h.sub (hv 3) (hv 2)
    have h0 := h.div (one +. one) (h.sub (hv 3) (hv 1))
    have h1 := h.naturalK1 fma (one +. one) hd h0
    cases lin
    · exact h.hermite _ _ (hv 2) hd h0 h1
    · exact h.linExtrap _ _ (hv 3) h1

theorem cubicInnerRectilinear (fma fk fl : Bool) (g : Fin 4 → T) (x : T) (sat : Saturation)
    (lin : Bool) {v v' : Fin 4 → T} (hv : ∀ p, R (v p) (v' p)) :
    R (cubicInnerRectilinear fma fk fl v g x sat lin)
      (Interpn.cubicInnerRectilinear fma fk fl v' g x sat lin) := by
  unfold Interpn.cubicInnerRectilinear
  cases sat
  · exact h.hermite _ _ (hv 1) (h.sub (hv 2) (hv 1)) (h.centeredDiff _ _ _ (hv 0) (hv 1) (hv 2))
      (h.centeredDiff _ _ _ (hv 1) (hv 2) (hv 3))
  · have hd := h.sub (hv 0) (hv 1)
    have h0 := h.neg (h.centeredDiff fma one ((g 2 -. g 1) /. (g 1 -. g 0)) (hv 0) (hv 1) (hv 2))
    exact h.hermite _ _ (hv 1) hd h0 (h.naturalK1 _ _ hd h0)
  · have hd := h.sub (hv 0) (hv 1)
    have h0 := h.neg (h.centeredDiff fma one ((g 2 -. g 1) /. (g 1 -. g 0)) (hv 0) (hv 1) (hv 2))
    have h1 := h.naturalK1 false (one +. one) hd h0
    cases lin
    · exact h.hermite _ _ (hv 1) hd h0 h1
    · exact h.linExtrap _ _ (hv 0) h1
  · have hd := h.sub (hv 3) (hv 2)
    have h0 := h.centeredDiff fma ((g 2 -. g 1) /. (g 3 -. g 2)) one (hv 1) (hv 2) (hv 3)
    exact h.hermite _ _ (hv 2) hd h0 (h.naturalK1 _ _ hd h0)
  · have hd := h.sub (hv 3) (hv 2)
    have h0 := h.centeredDiff fma ((g 2 -. g 1) /. (g 3 -. g 2)) one (hv 1) (hv 2) (hv 3)
    have h1 := h.naturalK1 false (one +. one) hd h0
    cases lin
    · exact h.hermite _ _ (hv 2) hd h0 h1
    · exact h.linExtrap _ _ (hv 3) h1

end DataRel

section
variable {R : T → T → Prop} {vals vals' : List T}

omit [FloatOps T] in
theorem forall₂_slice (hv : List.Forall₂ R vals vals') (hs : IsSlice vals) : IsSlice vals' := by
  rw [isSlice_iff] at *; rw [← hv.length_eq]; exact hs

theorem valAt_rel (hv : List.Forall₂ R vals vals') {dims : Fin N → Nat}
    (hl : vals.length = ∏ k, dims k) (loc : Fin N → Nat) (hb : ∀ k, loc k < dims k) :
    R (valAt zero dims vals loc) (valAt zero dims vals' loc) := by
  have h1 := samples_valAt zero dims vals hl loc hb
  have h2 := samples_valAt zero dims vals' (hv.length_eq ▸ hl) loc hb
  obtain ⟨i1, e1⟩ := List.getElem?_eq_some_iff.1 h1
  obtain ⟨i2, e2⟩ := List.getElem?_eq_some_iff.1 h2
  rw [← e1, ← e2]
  exact List.forall₂_iff_get.1 hv |>.2 _ i1 i2

omit [FloatOps T] in
theorem sameOutcome_bind {α : Type} (r : Res α) {k k' : α → Res T}
    (h : ∀ a, r = .ok a → SameOutcome R (k a) (k' a)) : SameOutcome R (r >>= k) (r >>= k') := by
  cases r with
  | ok a => exact h a rfl
  | err m => exact .err m
  | panic => exact .panic

end

namespace DataRel
variable {R : T → T → Prop} (h : DataRel R) {vals vals' : List T}
include h

theorem multilinearRectilinearAt (e : Evaluator) (he : e.Fits N) (fma : Bool)
    (grids : Fin N → List T) (hv : List.Forall₂ R vals vals') (hs : IsSlice vals) (x : Fin N → T) :
    SameOutcome R (multilinearRectilinearAt e fma grids vals x)
      (Interpn.multilinearRectilinearAt e fma grids vals' x) := by
  rw [multilinearRectilinearAt_eq e he fma grids vals hs,
    multilinearRectilinearAt_eq e he fma grids vals' (forall₂_slice hv hs),
    checkRectilinear_vals hv.length_eq.symm]
  refine sameOutcome_bind _ fun _ hc => .ok ?_
  obtain ⟨h1, h2, h3, h4⟩ := (checkRectilinear_eq_ok le_rfl).1 hc
  have hg : GoodVals 2 (fun k => (grids k).length) vals := goodVals_grids h1 h2 h3
  refine axisByAxis_rel R (fun k i => i < (grids k).length) _ _ _ _ (fun k g g' hgg => ?_)
    (fun loc hl => valAt_rel hv hg.len loc hl)
  have := linCell_bound (hg.min k) (x k)
  exact h.lerp _ _ fun p => hgg _ (by have := p.isLt; omega)

theorem multilinearRegularAt (e : Evaluator) (he : e.Fits N) (fma : Bool)
    (dims : Fin N → Nat) (starts steps : Fin N → T)
    (hv : List.Forall₂ R vals vals') (hs : IsSlice vals) (x : Fin N → T) :
    SameOutcome R (multilinearRegularAt e fma dims starts steps vals x)
      (Interpn.multilinearRegularAt e fma dims starts steps vals' x) := by
  have ha := multilinearRegularAt_eq e he fma dims starts steps vals hs x
  have hb := multilinearRegularAt_eq e he fma dims starts steps vals' (forall₂_slice hv hs) x
  rw [checkRegular_vals hv.length_eq.symm] at hb
  by_cases hn : ∃ k, linRegAxis (e.fmaLoc fma) (dims k) (starts k) (steps k) (x k) = none
  · rw [ha.2 hn, hb.2 hn]
    exact sameOutcome_bind _ fun _ _ => .err _
  · have : ∀ k, ∃ a, linRegAxis (e.fmaLoc fma) (dims k) (starts k) (steps k) (x k) = some a :=
      fun k => Option.ne_none_iff_exists'.1 fun hk => hn ⟨k, hk⟩
    choose a hax using this
    rw [ha.1 a hax, hb.1 a hax]
    refine sameOutcome_bind _ fun _ hc => .ok ?_
    obtain ⟨h1, h2, h3, h4⟩ := checkRegular_eq_ok.1 hc
    have hg : GoodVals 2 dims vals := goodVals_of h1 h2 h3
    refine axisByAxis_rel R (fun k i => i < dims k) _ _ _ _ (fun k g g' hgg => ?_)
      (fun loc hl => valAt_rel hv hg.len loc hl)
    have := linRegAxis_bound (hg.min k) (hax k)
    exact h.lerp _ _ fun p => hgg _ (by have := p.isLt; omega)

theorem multicubicRectilinearAt (e : Evaluator) (he : e.Fits N) (fma : Bool)
    (grids : Fin N → List T) (lin : Bool) (hv : List.Forall₂ R vals vals') (hs : IsSlice vals)
    (x : Fin N → T) :
    SameOutcome R (multicubicRectilinearAt e fma grids vals lin x)
      (Interpn.multicubicRectilinearAt e fma grids vals' lin x) := by
  rw [multicubicRectilinearAt_eq e he fma grids vals lin hs,
    multicubicRectilinearAt_eq e he fma grids vals' lin (forall₂_slice hv hs),
    checkRectilinear_vals hv.length_eq.symm]
  refine sameOutcome_bind _ fun _ hc => .ok ?_
  obtain ⟨h1, h2, h3, h4⟩ := (checkRectilinear_eq_ok (by omega)).1 hc
  have hg : GoodVals 4 (fun k => (grids k).length) vals := goodVals_grids h1 h2 h3
  refine axisByAxis_rel R (fun k i => i < (grids k).length) _ _ _ _ (fun k g g' hgg => ?_)
    (fun loc hl => valAt_rel hv hg.len loc hl)
  have := cubCell_bound (hg.min k) (x k)
  exact h.cubicInnerRectilinear _ _ _ _ _ _ _ fun p => hgg _ (by have := p.isLt; omega)

theorem multicubicRegularAt (e : Evaluator) (he : e.Fits N) (fma : Bool) (hT : TotalOfUsize T)
    (dims : Fin N → Nat) (starts steps : Fin N → T) (lin : Bool)
    (hv : List.Forall₂ R vals vals') (hs : IsSlice vals) (x : Fin N → T) :
    SameOutcome R (multicubicRegularAt e fma dims starts steps vals lin x)
      (Interpn.multicubicRegularAt e fma dims starts steps vals' lin x) := by
  rw [multicubicRegularAt_eq e he fma hT dims starts steps vals lin hs,
    multicubicRegularAt_eq e he fma hT dims starts steps vals' lin (forall₂_slice hv hs),
    checkRegular_vals hv.length_eq.symm]
  refine sameOutcome_bind _ fun _ hc => ?_
  obtain ⟨h1, h2, h3, h4⟩ := checkRegular_eq_ok.1 hc
  have hg : GoodVals 4 dims vals := goodVals_of h1 h2 h3
  refine sameOutcome_bind _ fun a ha => .ok ?_
  have hax : ∀ k, cubRegAxis (dims k) (starts k) (steps k) (x k) = .ok (a k) := by
    rcases axisLoop_cases N (0, Saturation.none, (zero : T)) (fun i => do
        cubRegAxis (← aget dims i) (← aget starts i) (← aget steps i) (← aget x i)) with
      ⟨b, hb, e⟩ | ⟨_, _, _, _, e⟩ | ⟨_, _, _, e⟩
    · rw [e] at ha
      cases ha
      intro k
      have := hb k
      simpa only [aget_fin, Res.ok_bind] using this
    · rw [e] at ha; cases ha
    · rw [e] at ha; cases ha
  refine axisByAxis_rel R (fun k i => i < dims k) _ _ _ _ (fun k g g' hgg => ?_)
    (fun loc hl => valAt_rel hv hg.len loc hl)
  have := cubRegAxis_bound (hg.min k) (hax k)
  exact h.cubicInnerRegular _ _ _ _ _ fun p => hgg _ (by have := p.isLt; omega)

omit h in
theorem nearestRectilinearAt (grids : Fin N → List T) (hv : List.Forall₂ R vals vals')
    (hs : IsSlice vals) (x : Fin N → T) :
    SameOutcome R (nearestRectilinearAt grids vals x)
      (Interpn.nearestRectilinearAt grids vals' x) := by
  rw [nearestRectilinearAt_eq grids vals hs,
    nearestRectilinearAt_eq grids vals' (forall₂_slice hv hs),
    checkRectilinear_vals hv.length_eq.symm]
  refine sameOutcome_bind _ fun _ hc => .ok ?_
  obtain ⟨h1, h2, h3, h4⟩ := (checkRectilinear_eq_ok le_rfl).1 hc
  have hg : GoodVals 2 (fun k => (grids k).length) vals := goodVals_grids h1 h2 h3
  exact valAt_rel hv hg.len _ fun k => nearRectAxis_bound (hg.min k) (x k)

omit h in
theorem nearestRegularAt (fma : Bool) (dims : Fin N → Nat) (starts steps : Fin N → T)
    (hv : List.Forall₂ R vals vals') (hs : IsSlice vals) (x : Fin N → T) :
    SameOutcome R (nearestRegularAt fma dims starts steps vals x)
      (Interpn.nearestRegularAt fma dims starts steps vals' x) := by
  have ha := nearestRegularAt_eq fma dims starts steps vals hs x
  have hb := nearestRegularAt_eq fma dims starts steps vals' (forall₂_slice hv hs) x
  rw [checkRegular_vals hv.length_eq.symm] at hb
  by_cases hn : ∃ k, nearRegAxis fma (dims k) (starts k) (steps k) (x k) = none
  · rw [ha.2 hn, hb.2 hn]
    exact sameOutcome_bind _ fun _ _ => .err _
  · have : ∀ k, ∃ a, nearRegAxis fma (dims k) (starts k) (steps k) (x k) = some a :=
      fun k => Option.ne_none_iff_exists'.1 fun hk => hn ⟨k, hk⟩
    choose a hax using this
    rw [ha.1 a hax, hb.1 a hax]
    refine sameOutcome_bind _ fun _ hc => .ok ?_
    obtain ⟨h1, h2, h3, h4⟩ := checkRegular_eq_ok.1 hc
    have hg : GoodVals 2 dims vals := goodVals_of h1 h2 h3
    exact valAt_rel hv hg.len _ fun k => nearRegAxis_bound (hg.min k) (hax k)

theorem linear1 (fma : Bool) (loc : T) {g g' : GridSample T} (e0 : g.x0 = g'.x0)
    (e1 : g.x1 = g'.x1) (h0 : R g.y0 g'.y0) (h1 : R g.y1 g'.y1) :
    R (linear1 fma g loc) (Interpn.linear1 fma g' loc) := by
  unfold Interpn.linear1
  rw [e0, e1]
  have hsl := h.div (g'.x1 -. g'.x0) (h.sub h1 h0)
  cases fma
  · exact h.add h0 (h.mulR _ hsl)
  · exact h.fmaR _ hsl h0

/-- The 1-D interpolators on a sample whose coordinates do not depend on the values. -/
theorem evalOne (fma : Bool) (kind : Kind1D) (loc : T) {n : Nat}
    {sample : List T → Res (GridSample T)} (hp : SamplesPair n sample)
    (hv : List.Forall₂ R vals vals') (hl : vals.length = n) :
    SameOutcome R (kind.evalOne fma (fun _ => sample vals) loc)
      (kind.evalOne fma (fun _ => sample vals') loc) := by
  have hl' : vals'.length = n := hv.length_eq ▸ hl
  rcases hp with ⟨i, x0, x1, ex, hi, hs⟩ | hbad
  · obtain ⟨y0, y1, a0, a1, a2⟩ := hs vals hl
    obtain ⟨y0', y1', b0, b1, b2⟩ := hs vals' hl'
    have hget : ∀ (j : Nat) (a b : T), vals[j]? = some a → vals'[j]? = some b → R a b := by
      intro j a b ha hb
      obtain ⟨i1, e1⟩ := List.getElem?_eq_some_iff.1 ha
      obtain ⟨i2, e2⟩ := List.getElem?_eq_some_iff.1 hb
      rw [← e1, ← e2]
      exact List.forall₂_iff_get.1 hv |>.2 _ i1 i2
    have r0 := hget _ _ _ a0 b0
    have r1 := hget _ _ _ a1 b1
    have hlin := h.linear1 fma loc (g := ⟨x0, y0, x1, y1, ex⟩) (g' := ⟨x0, y0', x1, y1', ex⟩)
      rfl rfl r0 r1
    cases kind <;> simp only [Kind1D.evalOne]
    · unfold Linear1D.evalOne
      rw [a2, b2]
      exact .ok hlin
    · unfold LinearHoldLast1D.evalOne
      rw [a2, b2]
      cases ex
      · exact .ok hlin
      · exact .ok r0
      · exact .ok r1
    · unfold Left1D.evalOne
      rw [a2, b2]
      cases ex
      · exact .ok r0
      · exact .ok r0
      · exact .ok r1
    · unfold Right1D.evalOne
      rw [a2, b2]
      cases ex
      · exact .ok r1
      · exact .ok r0
      · exact .ok r1
    · unfold Nearest1D.evalOne
      rw [a2, b2]
      simp only [Res.ok_bind, Res.pure_eq]
      refine .ok ?_
      split
      · exact r0
      · exact r1
  · obtain ⟨e, hno⟩ := hbad vals vals' hl hl'
    have hf : ∀ F : Res (GridSample T) → Res T, (F = fun r => r >>= fun g => F (.ok g)) →
        SameOutcome R (F (sample vals)) (F (sample vals')) := by
      intro F hF
      rw [← e, hF]
      cases hr : sample vals with
      | ok v => exact absurd hr (hno v)
      | err m => exact .err m
      | panic => exact .panic
    cases kind
    · exact hf (fun r => Linear1D.evalOne fma (fun _ => r) loc) (by
        funext r; cases r <;> rfl)
    · exact hf (fun r => LinearHoldLast1D.evalOne fma (fun _ => r) loc) (by
        funext r; cases r <;> rfl)
    · exact hf (fun r => Left1D.evalOne (fun _ => r) loc) (by
        funext r; cases r <;> rfl)
    · exact hf (fun r => Right1D.evalOne (fun _ => r) loc) (by
        funext r; cases r <;> rfl)
    · exact hf (fun r => Nearest1D.evalOne (fun _ => r) loc) (by
        funext r; cases r <;> rfl)

theorem regular1DAt (fma : Bool) (kind : Kind1D) (start step loc : T)
    (hv : List.Forall₂ R vals vals') (hs : IsSlice vals) :
    SameOutcome R (regular1DAt (kind.evalOne fma) start step vals loc)
      (Interpn.regular1DAt (kind.evalOne fma) start step vals' loc) := by
  have hb : ∀ v : List T, Interpn.regular1DAt (kind.evalOne fma) start step v loc =
      kind.evalOne fma (fun _ => RegularGrid1D.new start step v >>= fun g => g.at loc) loc := by
    intro v
    unfold Interpn.regular1DAt
    cases RegularGrid1D.new start step v with
    | ok g => cases kind <;> rfl
    | err m => cases kind <;> rfl
    | panic => cases kind <;> rfl
  rw [hb, hb]
  exact h.evalOne fma kind loc (regular_samplesPair start step loc vals.length
    ((isSlice_iff _).1 hs)) hv rfl

theorem rectilinear1DAt (fma : Bool) (kind : Kind1D) (grid : List T) (loc : T)
    (hv : List.Forall₂ R vals vals') (hs : IsSlice vals) :
    SameOutcome R (rectilinear1DAt (kind.evalOne fma) grid vals loc)
      (Interpn.rectilinear1DAt (kind.evalOne fma) grid vals' loc) := by
  have hb : ∀ v : List T, Interpn.rectilinear1DAt (kind.evalOne fma) grid v loc =
      kind.evalOne fma (fun _ => RectilinearGrid1D.new grid v >>= fun g => g.at loc) loc := by
    intro v
    unfold Interpn.rectilinear1DAt
    cases RectilinearGrid1D.new grid v with
    | ok g => cases kind <;> rfl
    | err m => cases kind <;> rfl
    | panic => cases kind <;> rfl
  rw [hb, hb]
  exact h.evalOne fma kind loc (rectilinear_samplesPair grid loc vals.length
    ((isSlice_iff _).1 hs)) hv rfl

end DataRel

end Interpn
