import Verif.Lemmas.New
import Verif.Lemmas.ExactRules
import Verif.Lemmas.RatOps

/-! C01–C04: the flattened and the recursive evaluators agree.

`IsSlice vals` is the Rust guarantee that a slice has at most `isize::MAX` elements. The
equalities are between complete outcomes: constructor error, evaluation error, panic or
value. They hold for an arbitrary float type `T` (no law of arithmetic), so the values are
equal bit for bit. The `_exact` versions are in exact arithmetic, for any setting of the
`fma` feature in either program. -/

set_option autoImplicit false

namespace Interpn
open FloatOps

section
variable {T : Type} [FloatOps T] {N M : Nat}

/-! #### Common parts -/

theorem mlRegular_core (f1 f2 : Bool)
    (hax : ∀ dim start step x, linRegAxis (T := T) f1 dim start step x =
      linRegAxis false dim start step x)
    (hlerp : ∀ t v, lerp (T := T) f1 t v = lerp f2 t v)
    (hN : 0 < N) (hM : N ≤ M) (dims : Fin N → Nat)
    (starts steps : Fin N → T) (vals : List T) (hs : IsSlice vals) (x : Fin N → T) :
    (do let s ← MultilinearRegular.new dims starts steps vals
        s.interpOne f1 x) =
    (do let r ← MultilinearRegularRecursive.new M (List.ofFn dims) (List.ofFn starts)
          (List.ofFn steps) vals
        r.interpOne f2 (List.ofFn x)) := by
  rw [MultilinearRegularRecursive.new_ofFn hN hM]
  rw [MultilinearRegular.new_form]
  cases hc : checkRegular 2 "All grids must have at least two entries" (List.ofFn dims)
      (List.ofFn steps) vals with
  | err e => rfl
  | panic => rfl
  | ok u =>
    obtain ⟨h1, h2, h3, _⟩ := checkRegular_eq_ok.1 hc
    have hv : GoodVals 2 dims vals := goodVals_of h1 h2 h3
    simp only [Res.ok_bind, Res.pure_eq]
    obtain ⟨hok, herr⟩ := MultilinearRegularRecursive.interpOne_cases (x := x)
      (s := { ndims := (List.ofFn dims).length, dims := fun i => (List.ofFn dims).getD i.val 0,
              starts := fun i => (List.ofFn starts).getD i.val zero,
              steps := fun i => (List.ofFn steps).getD i.val zero, vals := vals })
      (dims := dims) (starts := starts) (steps := steps)
      f2 hN (by simp) hM (fun k => getD_ofFn _ _ k) (fun k => getD_ofFn _ _ k)
      (fun k => getD_ofFn _ _ k) hv hs (samples_valAt zero _ _ hv.len)
    by_cases hex : ∃ k, linRegAxis false (dims k) (starts k) (steps k) (x k) = none
    · rw [herr hex]
      refine MultilinearRegular.interpOne_err (s := ⟨dims, starts, steps, vals⟩) f1 hN hv hs ?_
      simpa only [hax] using hex
    · have : ∀ k, ∃ a, linRegAxis false (dims k) (starts k) (steps k) (x k) = some a := by
        intro k
        cases h : linRegAxis false (dims k) (starts k) (steps k) (x k) with
        | none => exact absurd ⟨k, h⟩ hex
        | some a => exact ⟨a, rfl⟩
      choose a ha using this
      rw [hok a ha]
      simp only [← hlerp]
      exact MultilinearRegular.interpOne_ok (s := ⟨dims, starts, steps, vals⟩) f1 hN hv hs
        (samples_valAt zero _ _ hv.len) a (fun k => by rw [hax]; exact ha k)

theorem mlRectilinear_core (f1 f2 : Bool)
    (hrule : ∀ grid x f, linRule (T := T) f1 grid x f = linRule f2 grid x f)
    (hN : 0 < N) (hM : N ≤ M) (grids : Fin N → List T) (vals : List T) (hs : IsSlice vals)
    (x : Fin N → T) :
    (do let s ← MultilinearRectilinear.new grids vals
        s.interpOne f1 x) =
    (do let r ← MultilinearRectilinearRecursive.new M (List.ofFn grids) vals
        r.interpOne f2 (List.ofFn x)) := by
  rw [MultilinearRectilinearRecursive.new_eq (by simpa using hN) (by simpa using hM)]
  rw [MultilinearRectilinear.new_form]
  cases hc : checkRectilinear 2 "All grids must have at least 2 entries" (List.ofFn grids)
      vals with
  | err e => rfl
  | panic => rfl
  | ok u =>
    obtain ⟨h1, h2, h3, _⟩ := (checkRectilinear_eq_ok le_rfl).1 hc
    have hv : GoodVals 2 (fun k => (grids k).length) vals := goodVals_grids h1 h2 h3
    have hg := samples_valAt zero _ _ hv.len
    simp only [Res.ok_bind, Res.pure_eq]
    rw [MultilinearRectilinearRecursive.interpOne_ok (grids := grids) f2 (by simp) hM
      (fun k => by simp) (fun k => by simp) hv hs hg,
      MultilinearRectilinear.interpOne_ok (s := ⟨grids, fun k => (grids k).length, vals⟩) f1 hN
        (fun _ => rfl) hv hs hg]
    congr 1
    exact axisByAxis_congr_op _ _ _ fun k f => hrule _ _ _

theorem mcRegular_core (f1 f2 : Bool) (hT : TotalOfUsize T)
    (hrule : ∀ lin a f, cubRegRule (T := T) f1 f1 lin a f = cubRegRule f2 false lin a f)
    (hN : 0 < N) (hM : N ≤ M) (dims : Fin N → Nat)
    (starts steps : Fin N → T) (vals : List T) (lin : Bool) (hs : IsSlice vals) (x : Fin N → T) :
    (do let s ← MulticubicRegular.new dims starts steps vals lin
        s.interpOne f1 x) =
    (do let r ← MulticubicRegularRecursive.new M (List.ofFn dims) (List.ofFn starts)
          (List.ofFn steps) vals lin
        r.interpOne f2 (List.ofFn x)) := by
  rw [MulticubicRegularRecursive.new_ofFn hN hM]
  rw [MulticubicRegular.new_form]
  cases hc : checkRegular 4 "All grids must have at least four entries" (List.ofFn dims)
      (List.ofFn steps) vals with
  | err e => rfl
  | panic => rfl
  | ok u =>
    obtain ⟨h1, h2, h3, _⟩ := checkRegular_eq_ok.1 hc
    have hv : GoodVals 4 dims vals := goodVals_of h1 h2 h3
    have hg := samples_valAt zero _ _ hv.len
    simp only [Res.ok_bind, Res.pure_eq]
    rw [MulticubicRegularRecursive.interpOne_eq (dims := dims) (starts := starts) (steps := steps)
      f2 hT (by simp) hM (fun k => getD_ofFn _ _ k) (fun k => getD_ofFn _ _ k)
      (fun k => getD_ofFn _ _ k) hv hs hg,
      MulticubicRegular.interpOne_eq (s := ⟨dims, starts, steps, vals, lin⟩) f1 hN hv hs hg]
    congr 1; funext a
    congr 1
    exact axisByAxis_congr_op _ _ _ fun k f => hrule _ _ _

theorem mcRectilinear_core (f1 f2 : Bool)
    (hrule : ∀ lin grid x f, cubRectRule (T := T) f1 false false lin grid x f =
      cubRectRule f2 f2 f2 lin grid x f)
    (hN : 0 < N) (hM : N ≤ M) (grids : Fin N → List T) (vals : List T) (lin : Bool)
    (hs : IsSlice vals) (x : Fin N → T) :
    (do let s ← MulticubicRectilinear.new grids vals lin
        s.interpOne f1 x) =
    (do let r ← MulticubicRectilinearRecursive.new M (List.ofFn grids) vals lin
        r.interpOne f2 (List.ofFn x)) := by
  rw [MulticubicRectilinearRecursive.new_eq (by simpa using hN) (by simpa using hM)]
  rw [MulticubicRectilinear.new_form]
  cases hc : checkRectilinear 4 "All grids must have at least 4 entries" (List.ofFn grids)
      vals with
  | err e => rfl
  | panic => rfl
  | ok u =>
    obtain ⟨h1, h2, h3, _⟩ := (checkRectilinear_eq_ok (by omega)).1 hc
    have hv : GoodVals 4 (fun k => (grids k).length) vals := goodVals_grids h1 h2 h3
    have hg := samples_valAt zero _ _ hv.len
    simp only [Res.ok_bind, Res.pure_eq]
    rw [MulticubicRectilinearRecursive.interpOne_ok (grids := grids) f2 (by simp) hM
      (fun k => by simp) (fun k => by simp) hv hs hg,
      MulticubicRectilinear.interpOne_ok (s := ⟨grids, fun k => (grids k).length, vals, lin⟩) f1 hN
        (fun _ => rfl) hv hs hg]
    congr 1
    exact axisByAxis_congr_op _ _ _ fun k f => hrule _ _ _ _

/-! #### Bit for bit -/

/-- C01. Regular multilinear, `fma` feature off. -/
theorem C01_multilinear_regular (hN : 0 < N) (hM : N ≤ M) (dims : Fin N → Nat)
    (starts steps : Fin N → T) (vals : List T) (hs : IsSlice vals) (x : Fin N → T) :
    (do let s ← MultilinearRegular.new dims starts steps vals
        s.interpOne false x) =
    (do let r ← MultilinearRegularRecursive.new M (List.ofFn dims) (List.ofFn starts)
          (List.ofFn steps) vals
        r.interpOne false (List.ofFn x)) :=
  mlRegular_core false false (fun _ _ _ _ => rfl) (fun _ _ => rfl) hN hM dims starts steps vals hs x

/-- C02. Rectilinear multilinear, `fma` feature off or on. -/
theorem C02_multilinear_rectilinear (fma : Bool) (hN : 0 < N) (hM : N ≤ M)
    (grids : Fin N → List T) (vals : List T) (hs : IsSlice vals) (x : Fin N → T) :
    (do let s ← MultilinearRectilinear.new grids vals
        s.interpOne fma x) =
    (do let r ← MultilinearRectilinearRecursive.new M (List.ofFn grids) vals
        r.interpOne fma (List.ofFn x)) :=
  mlRectilinear_core fma fma (fun _ _ _ => rfl) hN hM grids vals hs x

/-- C03. Regular multicubic, `fma` feature off; `TotalOfUsize`: every `usize` converts to the
float type, as it does for `f32` and `f64`. -/
theorem C03_multicubic_regular (hT : TotalOfUsize T) (hN : 0 < N) (hM : N ≤ M)
    (dims : Fin N → Nat) (starts steps : Fin N → T) (vals : List T) (lin : Bool)
    (hs : IsSlice vals) (x : Fin N → T) :
    (do let s ← MulticubicRegular.new dims starts steps vals lin
        s.interpOne false x) =
    (do let r ← MulticubicRegularRecursive.new M (List.ofFn dims) (List.ofFn starts)
          (List.ofFn steps) vals lin
        r.interpOne false (List.ofFn x)) :=
  mcRegular_core false false hT (fun _ _ _ => rfl) hN hM dims starts steps vals lin hs x

/-- C04. Rectilinear multicubic, `fma` feature off. -/
theorem C04_multicubic_rectilinear (hN : 0 < N) (hM : N ≤ M)
    (grids : Fin N → List T) (vals : List T) (lin : Bool) (hs : IsSlice vals) (x : Fin N → T) :
    (do let s ← MulticubicRectilinear.new grids vals lin
        s.interpOne false x) =
    (do let r ← MulticubicRectilinearRecursive.new M (List.ofFn grids) vals lin
        r.interpOne false (List.ofFn x)) :=
  mcRectilinear_core false false (fun _ _ _ _ => rfl) hN hM grids vals lin hs x

end

/-! #### Exact arithmetic, any `fma` setting on either side -/

section
variable {K : Type} [Field K] [LinearOrder K] [FloorRing K] {N M : Nat}
attribute [local instance] exactOps

/-- C01 in exact arithmetic. -/
theorem C01_multilinear_regular_exact (fma fma' : Bool) (hN : 0 < N) (hM : N ≤ M)
    (dims : Fin N → Nat) (starts steps : Fin N → K) (vals : List K) (hs : IsSlice vals)
    (x : Fin N → K) :
    (do let s ← MultilinearRegular.new dims starts steps vals
        s.interpOne fma x) =
    (do let r ← MultilinearRegularRecursive.new M (List.ofFn dims) (List.ofFn starts)
          (List.ofFn steps) vals
        r.interpOne fma' (List.ofFn x)) :=
  mlRegular_core fma fma' (fun _ _ _ _ => linRegAxis_fma _ _ _ _ _)
    (fun _ _ => by rw [lerp_exact, lerp_exact]) hN hM dims starts steps vals hs x

/-- C02 in exact arithmetic. -/
theorem C02_multilinear_rectilinear_exact (fma fma' : Bool) (hN : 0 < N) (hM : N ≤ M)
    (grids : Fin N → List K) (vals : List K) (hs : IsSlice vals) (x : Fin N → K) :
    (do let s ← MultilinearRectilinear.new grids vals
        s.interpOne fma x) =
    (do let r ← MultilinearRectilinearRecursive.new M (List.ofFn grids) vals
        r.interpOne fma' (List.ofFn x)) :=
  mlRectilinear_core fma fma' (fun _ _ _ => by rw [linRule_fma, linRule_fma fma'])
    hN hM grids vals hs x

/-- C03 in exact arithmetic. -/
theorem C03_multicubic_regular_exact (fma fma' : Bool) (hN : 0 < N) (hM : N ≤ M)
    (dims : Fin N → Nat) (starts steps : Fin N → K) (vals : List K) (lin : Bool)
    (hs : IsSlice vals) (x : Fin N → K) :
    (do let s ← MulticubicRegular.new dims starts steps vals lin
        s.interpOne fma x) =
    (do let r ← MulticubicRegularRecursive.new M (List.ofFn dims) (List.ofFn starts)
          (List.ofFn steps) vals lin
        r.interpOne fma' (List.ofFn x)) :=
  mcRegular_core fma fma' totalOfUsize_exact
    (fun _ _ _ => by rw [cubRegRule_fma, cubRegRule_fma fma'])
    hN hM dims starts steps vals lin hs x

/-- C04 in exact arithmetic. -/
theorem C04_multicubic_rectilinear_exact (fma fma' : Bool) (hN : 0 < N) (hM : N ≤ M)
    (grids : Fin N → List K) (vals : List K) (lin : Bool) (hs : IsSlice vals) (x : Fin N → K) :
    (do let s ← MulticubicRectilinear.new grids vals lin
        s.interpOne fma x) =
    (do let r ← MulticubicRectilinearRecursive.new M (List.ofFn grids) vals lin
        r.interpOne fma' (List.ofFn x)) :=
  mcRectilinear_core fma fma' (fun _ _ _ _ => by rw [cubRectRule_fma, cubRectRule_fma fma'])
    hN hM grids vals lin hs x

end

/-! #### Concrete cases: both sides are a value, not a shared error -/

section
attribute [local instance] ratOps

example : IsSlice ([1, 2, 3, 4, 5, 6] : List ℚ) ∧ TotalOfUsize ℚ ∧ (do
    let s ← MultilinearRegular.new (T := ℚ) (N := 2) ![2, 3] ![0, 1] ![1, 2] [1, 2, 3, 4, 5, 6]
    s.interpOne false ![1 / 2, 7 / 2]) = .ok (15 / 4) :=
  ⟨by unfold IsSlice; decide, totalOfUsize_exact, by decide +kernel⟩

example : (do
    let r ← MultilinearRegularRecursive.new (T := ℚ) 5 [2, 3] [0, 1] [1, 2] [1, 2, 3, 4, 5, 6]
    r.interpOne false [1 / 2, 7 / 2]) = .ok (15 / 4) := by decide +kernel

example : (do
    let s ← MultilinearRectilinear.new (T := ℚ) (N := 2) ![[0, 1], [1, 3, 7]] [1, 2, 3, 4, 5, 7]
    s.interpOne false ![1 / 2, 6]) = .ok (37 / 8) := by decide +kernel

example : (do
    let s ← MulticubicRegular.new (T := ℚ) (N := 1) ![5] ![0] ![1] [0, 1, 8, 27, 64] true
    s.interpOne false ![3 / 2]) = .ok (27 / 8 + 1 / 8 * 0) := by decide +kernel

example : (do
    let s ← MulticubicRectilinear.new (T := ℚ) (N := 1) ![[0, 1, 2, 4]] [0, 1, 4, 16] false
    s.interpOne false ![3]) = .ok 9 := by decide +kernel

end

end Interpn
