import Verif.Lemmas.UncheckedAgree
import Verif.Props.NoPanic
import Verif.Props.OneDim
import Verif.Props.Constructors
import Verif.Lemmas.RatOps

/-! C109: builds without overflow checks.

The crate's own profiles turn overflow checks on; a program that depends on the crate decides
for itself, and the default of its release profile is off. `Unchecked.f` is the function `f` in
such a build (`Verif/Model/Unchecked/`). Wherever the checked build does not panic the two agree
on the outcome and on the output buffer; for an interpolator that was constructed by the checked
build, that is everywhere except where C07 says that cubic evaluation panics. -/

set_option autoImplicit false

namespace Interpn
open FloatOps

section
variable {T : Type} [FloatOps T]

/-- C109, `MultilinearRegular`: construction, one point, a batch. -/
theorem C109_multilinear_regular {N : Nat} (fma : Bool) (dims : Fin N → Nat)
    (starts steps : Fin N → T) (vals : List T) :
    (MultilinearRegular.new dims starts steps vals ≠ .panic →
      Unchecked.MultilinearRegular.new dims starts steps vals =
        MultilinearRegular.new dims starts steps vals) ∧
    ∀ s : MultilinearRegular T N,
      (∀ x, s.interpOne fma x ≠ .panic →
        Unchecked.MultilinearRegular.interpOne fma s x = s.interpOne fma x) ∧
      ∀ x out, (s.interp fma x out).1 ≠ .panic →
        Unchecked.MultilinearRegular.interp fma s x out = s.interp fma x out :=
  ⟨(Le.MultilinearRegular_new ..).resolve_left, fun _ =>
    ⟨fun _ => (Le.MultilinearRegular_interpOne ..).resolve_left,
      fun _ _ => (LeOut.MultilinearRegular_interp ..).resolve_left⟩⟩

/-- C109, `MultilinearRegular`: an interpolator that the checked build constructs is
evaluated alike by the unchecked one, at every observation. -/
theorem C109_multilinear_regular_built {N : Nat} (fma : Bool) (hN : 0 < N) {dims : Fin N → Nat}
    {starts steps : Fin N → T} {vals : List T}
    (hs : IsSlice vals) {s : MultilinearRegular T N}
    (h : MultilinearRegular.new dims starts steps vals = .ok s) :
    Unchecked.MultilinearRegular.new dims starts steps vals = .ok s ∧
    (∀ x, Unchecked.MultilinearRegular.interpOne fma s x = s.interpOne fma x) ∧
    ∀ x out, Unchecked.MultilinearRegular.interp fma s x out = s.interp fma x out := by
  have hc := C05_multilinear_regular fma hN hs h
  have hu := (C109_multilinear_regular fma dims starts steps vals).2 s
  exact ⟨((C109_multilinear_regular fma dims starts steps vals).1
      (by rw [h]; exact fun h => nomatch h)).trans h,
    fun x => hu.1 x ((hc).1 x), fun x out => hu.2 x out (hc.2 x out)⟩

/-- C109, `MultilinearRectilinear`: construction, one point, a batch. -/
theorem C109_multilinear_rectilinear {N : Nat} (fma : Bool) (grids : Fin N → List T)
    (vals : List T) :
    (MultilinearRectilinear.new grids vals ≠ .panic →
      Unchecked.MultilinearRectilinear.new grids vals = MultilinearRectilinear.new grids vals) ∧
    ∀ s : MultilinearRectilinear T N,
      (∀ x, s.interpOne fma x ≠ .panic →
        Unchecked.MultilinearRectilinear.interpOne fma s x = s.interpOne fma x) ∧
      ∀ x out, (s.interp fma x out).1 ≠ .panic →
        Unchecked.MultilinearRectilinear.interp fma s x out = s.interp fma x out :=
  ⟨(Le.MultilinearRectilinear_new ..).resolve_left, fun _ =>
    ⟨fun _ => (Le.MultilinearRectilinear_interpOne ..).resolve_left,
      fun _ _ => (LeOut.MultilinearRectilinear_interp ..).resolve_left⟩⟩

/-- C109, `MultilinearRectilinear`: an interpolator that the checked build constructs is
evaluated alike by the unchecked one, at every observation. -/
theorem C109_multilinear_rectilinear_built {N : Nat} (fma : Bool) (hN : 0 < N) {grids : Fin N →
    List T} {vals : List T}
    (hs : IsSlice vals) {s : MultilinearRectilinear T N}
    (h : MultilinearRectilinear.new grids vals = .ok s) :
    Unchecked.MultilinearRectilinear.new grids vals = .ok s ∧
    (∀ x, Unchecked.MultilinearRectilinear.interpOne fma s x = s.interpOne fma x) ∧
    ∀ x out, Unchecked.MultilinearRectilinear.interp fma s x out = s.interp fma x out := by
  have hc := C05_multilinear_rectilinear fma hN hs h
  have hu := (C109_multilinear_rectilinear fma grids vals).2 s
  exact ⟨((C109_multilinear_rectilinear fma grids vals).1
      (by rw [h]; exact fun h => nomatch h)).trans h,
    fun x => hu.1 x ((hc).1 x), fun x out => hu.2 x out (hc.2 x out)⟩

/-- C109, `MultilinearRegularRecursive`: construction, one point, a batch. -/
theorem C109_multilinear_regular_recursive {M : Nat} (fma : Bool) (dims : List Nat)
    (starts steps vals : List T) :
    (MultilinearRegularRecursive.new M dims starts steps vals ≠ .panic →
      Unchecked.MultilinearRegularRecursive.new M dims starts steps vals =
        MultilinearRegularRecursive.new M dims starts steps vals) ∧
    ∀ s : MultilinearRegularRecursive T M,
      (∀ x, s.interpOne fma x ≠ .panic →
        Unchecked.MultilinearRegularRecursive.interpOne fma s x = s.interpOne fma x) ∧
      ∀ x out, (s.interp fma x out).1 ≠ .panic →
        Unchecked.MultilinearRegularRecursive.interp fma s x out = s.interp fma x out :=
  ⟨(Le.MultilinearRegularRecursive_new ..).resolve_left, fun _ =>
    ⟨fun _ => (Le.MultilinearRegularRecursive_interpOne ..).resolve_left,
      fun _ _ => (LeOut.MultilinearRegularRecursive_interp ..).resolve_left⟩⟩

/-- C109, `MultilinearRegularRecursive`: an interpolator that the checked build constructs is
evaluated alike by the unchecked one, at every observation. -/
theorem C109_multilinear_regular_recursive_built {M : Nat} (fma : Bool) {dims : List Nat}
    {starts steps vals : List T}
    (hs : IsSlice vals) {s : MultilinearRegularRecursive T M}
    (h : MultilinearRegularRecursive.new M dims starts steps vals = .ok s) :
    Unchecked.MultilinearRegularRecursive.new M dims starts steps vals = .ok s ∧
    (∀ x, Unchecked.MultilinearRegularRecursive.interpOne fma s x = s.interpOne fma x) ∧
    ∀ x out, Unchecked.MultilinearRegularRecursive.interp fma s x out = s.interp fma x out := by
  have hc := C05_multilinear_regular_recursive fma hs h
  have hu := (C109_multilinear_regular_recursive fma (M := M) dims starts steps vals).2 s
  exact ⟨((C109_multilinear_regular_recursive fma (M := M) dims starts steps vals).1
      (by rw [h]; exact fun h => nomatch h)).trans h,
    fun x => hu.1 x ((hc).1 x), fun x out => hu.2 x out (hc.2 x out)⟩

/-- C109, `MultilinearRectilinearRecursive`: construction, one point, a batch. -/
theorem C109_multilinear_rectilinear_recursive {M : Nat} (fma : Bool) (grids : List (List T))
    (vals : List T) :
    (MultilinearRectilinearRecursive.new M grids vals ≠ .panic →
      Unchecked.MultilinearRectilinearRecursive.new M grids vals =
        MultilinearRectilinearRecursive.new M grids vals) ∧
    ∀ s : MultilinearRectilinearRecursive T M,
      (∀ x, s.interpOne fma x ≠ .panic →
        Unchecked.MultilinearRectilinearRecursive.interpOne fma s x = s.interpOne fma x) ∧
      ∀ x out, (s.interp fma x out).1 ≠ .panic →
        Unchecked.MultilinearRectilinearRecursive.interp fma s x out = s.interp fma x out :=
  ⟨(Le.MultilinearRectilinearRecursive_new ..).resolve_left, fun _ =>
    ⟨fun _ => (Le.MultilinearRectilinearRecursive_interpOne ..).resolve_left,
      fun _ _ => (LeOut.MultilinearRectilinearRecursive_interp ..).resolve_left⟩⟩

/-- C109, `MultilinearRectilinearRecursive`: an interpolator that the checked build constructs is
evaluated alike by the unchecked one, at every observation. -/
theorem C109_multilinear_rectilinear_recursive_built {M : Nat} (fma : Bool)
    {grids : List (List T)} {vals : List T}
    (hs : IsSlice vals) {s : MultilinearRectilinearRecursive T M}
    (h : MultilinearRectilinearRecursive.new M grids vals = .ok s) :
    Unchecked.MultilinearRectilinearRecursive.new M grids vals = .ok s ∧
    (∀ x, Unchecked.MultilinearRectilinearRecursive.interpOne fma s x = s.interpOne fma x) ∧
    ∀ x out, Unchecked.MultilinearRectilinearRecursive.interp fma s x out = s.interp fma x out := by
  have hc := C05_multilinear_rectilinear_recursive fma hs h
  have hu := (C109_multilinear_rectilinear_recursive fma (M := M) grids vals).2 s
  exact ⟨((C109_multilinear_rectilinear_recursive fma (M := M) grids vals).1
      (by rw [h]; exact fun h => nomatch h)).trans h,
    fun x => hu.1 x ((hc).1 x), fun x out => hu.2 x out (hc.2 x out)⟩

/-- C109, `NearestRegular`: construction, one point, a batch. -/
theorem C109_nearest_regular {N : Nat} (fma : Bool) (dims : Fin N → Nat) (starts steps : Fin N →
    T) (vals : List T) :
    (NearestRegular.new dims starts steps vals ≠ .panic →
      Unchecked.NearestRegular.new dims starts steps vals =
        NearestRegular.new dims starts steps vals) ∧
    ∀ s : NearestRegular T N,
      (∀ x, s.interpOne fma x ≠ .panic →
        Unchecked.NearestRegular.interpOne fma s x = s.interpOne fma x) ∧
      ∀ x out, (s.interp fma x out).1 ≠ .panic →
        Unchecked.NearestRegular.interp fma s x out = s.interp fma x out :=
  ⟨(Le.NearestRegular_new ..).resolve_left, fun _ =>
    ⟨fun _ => (Le.NearestRegular_interpOne ..).resolve_left,
      fun _ _ => (LeOut.NearestRegular_interp ..).resolve_left⟩⟩

/-- C109, `NearestRegular`: an interpolator that the checked build constructs is
evaluated alike by the unchecked one, at every observation. -/
theorem C109_nearest_regular_built {N : Nat} (fma : Bool) {dims : Fin N → Nat}
    {starts steps : Fin N → T} {vals : List T}
    (hs : IsSlice vals) {s : NearestRegular T N}
    (h : NearestRegular.new dims starts steps vals = .ok s) :
    Unchecked.NearestRegular.new dims starts steps vals = .ok s ∧
    (∀ x, Unchecked.NearestRegular.interpOne fma s x = s.interpOne fma x) ∧
    ∀ x out, Unchecked.NearestRegular.interp fma s x out = s.interp fma x out := by
  have hc := C06_nearest_regular fma hs h
  have hu := (C109_nearest_regular fma dims starts steps vals).2 s
  exact ⟨((C109_nearest_regular fma dims starts steps vals).1
      (by rw [h]; exact fun h => nomatch h)).trans h,
    fun x => hu.1 x ((hc).1 x), fun x out => hu.2 x out (hc.2 x out)⟩

/-- C109, `NearestRectilinear`: construction, one point, a batch. -/
theorem C109_nearest_rectilinear {N : Nat} (grids : Fin N → List T) (vals : List T) :
    (NearestRectilinear.new grids vals ≠ .panic →
      Unchecked.NearestRectilinear.new grids vals = NearestRectilinear.new grids vals) ∧
    ∀ s : NearestRectilinear T N,
      (∀ x, s.interpOne x ≠ .panic →
        Unchecked.NearestRectilinear.interpOne s x = s.interpOne x) ∧
      ∀ x out, (s.interp x out).1 ≠ .panic →
        Unchecked.NearestRectilinear.interp s x out = s.interp x out :=
  ⟨(Le.NearestRectilinear_new ..).resolve_left, fun _ =>
    ⟨fun _ => (Le.NearestRectilinear_interpOne ..).resolve_left,
      fun _ _ => (LeOut.NearestRectilinear_interp ..).resolve_left⟩⟩

/-- C109, `NearestRectilinear`: an interpolator that the checked build constructs is
evaluated alike by the unchecked one, at every observation. -/
theorem C109_nearest_rectilinear_built {N : Nat} {grids : Fin N → List T} {vals : List T}
    (hs : IsSlice vals) {s : NearestRectilinear T N}
    (h : NearestRectilinear.new grids vals = .ok s) :
    Unchecked.NearestRectilinear.new grids vals = .ok s ∧
    (∀ x, Unchecked.NearestRectilinear.interpOne s x = s.interpOne x) ∧
    ∀ x out, Unchecked.NearestRectilinear.interp s x out = s.interp x out := by
  have hc := C06_nearest_rectilinear hs h
  have hu := (C109_nearest_rectilinear grids vals).2 s
  exact ⟨((C109_nearest_rectilinear grids vals).1
      (by rw [h]; exact fun h => nomatch h)).trans h,
    fun x => hu.1 x ((hc).1 x), fun x out => hu.2 x out (hc.2 x out)⟩

/-- C109, `MulticubicRegular`: construction, one point, a batch. -/
theorem C109_multicubic_regular {N : Nat} (fma : Bool) (dims : Fin N → Nat)
    (starts steps : Fin N → T) (vals : List T) (lin : Bool) :
    (MulticubicRegular.new dims starts steps vals lin ≠ .panic →
      Unchecked.MulticubicRegular.new dims starts steps vals lin =
        MulticubicRegular.new dims starts steps vals lin) ∧
    ∀ s : MulticubicRegular T N,
      (∀ x, s.interpOne fma x ≠ .panic →
        Unchecked.MulticubicRegular.interpOne fma s x = s.interpOne fma x) ∧
      ∀ x out, (s.interp fma x out).1 ≠ .panic →
        Unchecked.MulticubicRegular.interp fma s x out = s.interp fma x out :=
  ⟨(Le.MulticubicRegular_new ..).resolve_left, fun _ =>
    ⟨fun _ => (Le.MulticubicRegular_interpOne ..).resolve_left,
      fun _ _ => (LeOut.MulticubicRegular_interp ..).resolve_left⟩⟩

/-- C109, `MulticubicRectilinear`: construction, one point, a batch. -/
theorem C109_multicubic_rectilinear {N : Nat} (fma : Bool) (grids : Fin N → List T)
    (vals : List T) (lin : Bool) :
    (MulticubicRectilinear.new grids vals lin ≠ .panic →
      Unchecked.MulticubicRectilinear.new grids vals lin =
        MulticubicRectilinear.new grids vals lin) ∧
    ∀ s : MulticubicRectilinear T N,
      (∀ x, s.interpOne fma x ≠ .panic →
        Unchecked.MulticubicRectilinear.interpOne fma s x = s.interpOne fma x) ∧
      ∀ x out, (s.interp fma x out).1 ≠ .panic →
        Unchecked.MulticubicRectilinear.interp fma s x out = s.interp fma x out :=
  ⟨(Le.MulticubicRectilinear_new ..).resolve_left, fun _ =>
    ⟨fun _ => (Le.MulticubicRectilinear_interpOne ..).resolve_left,
      fun _ _ => (LeOut.MulticubicRectilinear_interp ..).resolve_left⟩⟩

/-- C109, `MulticubicRectilinear`: an interpolator that the checked build constructs is
evaluated alike by the unchecked one, at every observation. -/
theorem C109_multicubic_rectilinear_built {N : Nat} (fma : Bool) (hN : 0 < N) {grids : Fin N →
    List T} {vals : List T} {lin : Bool}
    (hs : IsSlice vals) {s : MulticubicRectilinear T N}
    (h : MulticubicRectilinear.new grids vals lin = .ok s) :
    Unchecked.MulticubicRectilinear.new grids vals lin = .ok s ∧
    (∀ x, Unchecked.MulticubicRectilinear.interpOne fma s x = s.interpOne fma x) ∧
    ∀ x out, Unchecked.MulticubicRectilinear.interp fma s x out = s.interp fma x out := by
  have hc := C07_multicubic_rectilinear fma hN hs h
  have hu := (C109_multicubic_rectilinear fma grids vals lin).2 s
  exact ⟨((C109_multicubic_rectilinear fma grids vals lin).1
      (by rw [h]; exact fun h => nomatch h)).trans h,
    fun x => hu.1 x
      (by obtain ⟨v, hv⟩ := hc.1 x; rw [hv]; exact fun h => nomatch h), fun x out => hu.2 x out
        (hc.2 x out)⟩

/-- C109, `MulticubicRegularRecursive`: construction, one point, a batch. -/
theorem C109_multicubic_regular_recursive {M : Nat} (fma : Bool) (dims : List Nat)
    (starts steps vals : List T) (lin : Bool) :
    (MulticubicRegularRecursive.new M dims starts steps vals lin ≠ .panic →
      Unchecked.MulticubicRegularRecursive.new M dims starts steps vals lin =
        MulticubicRegularRecursive.new M dims starts steps vals lin) ∧
    ∀ s : MulticubicRegularRecursive T M,
      (∀ x, s.interpOne fma x ≠ .panic →
        Unchecked.MulticubicRegularRecursive.interpOne fma s x = s.interpOne fma x) ∧
      ∀ x out, (s.interp fma x out).1 ≠ .panic →
        Unchecked.MulticubicRegularRecursive.interp fma s x out = s.interp fma x out :=
  ⟨(Le.MulticubicRegularRecursive_new ..).resolve_left, fun _ =>
    ⟨fun _ => (Le.MulticubicRegularRecursive_interpOne ..).resolve_left,
      fun _ _ => (LeOut.MulticubicRegularRecursive_interp ..).resolve_left⟩⟩

/-- C109, `MulticubicRectilinearRecursive`: construction, one point, a batch. -/
theorem C109_multicubic_rectilinear_recursive {M : Nat} (fma : Bool) (grids : List (List T))
    (vals : List T) (lin : Bool) :
    (MulticubicRectilinearRecursive.new M grids vals lin ≠ .panic →
      Unchecked.MulticubicRectilinearRecursive.new M grids vals lin =
        MulticubicRectilinearRecursive.new M grids vals lin) ∧
    ∀ s : MulticubicRectilinearRecursive T M,
      (∀ x, s.interpOne fma x ≠ .panic →
        Unchecked.MulticubicRectilinearRecursive.interpOne fma s x = s.interpOne fma x) ∧
      ∀ x out, (s.interp fma x out).1 ≠ .panic →
        Unchecked.MulticubicRectilinearRecursive.interp fma s x out = s.interp fma x out :=
  ⟨(Le.MulticubicRectilinearRecursive_new ..).resolve_left, fun _ =>
    ⟨fun _ => (Le.MulticubicRectilinearRecursive_interpOne ..).resolve_left,
      fun _ _ => (LeOut.MulticubicRectilinearRecursive_interp ..).resolve_left⟩⟩

/-- C109, `MulticubicRectilinearRecursive`: an interpolator that the checked build constructs is
evaluated alike by the unchecked one, at every observation. -/
theorem C109_multicubic_rectilinear_recursive_built {M : Nat} (fma : Bool)
    {grids : List (List T)} {vals : List T} {lin : Bool}
    (hs : IsSlice vals) {s : MulticubicRectilinearRecursive T M}
    (h : MulticubicRectilinearRecursive.new M grids vals lin = .ok s) :
    Unchecked.MulticubicRectilinearRecursive.new M grids vals lin = .ok s ∧
    (∀ x, Unchecked.MulticubicRectilinearRecursive.interpOne fma s x = s.interpOne fma x) ∧
    ∀ x out, Unchecked.MulticubicRectilinearRecursive.interp fma s x out = s.interp fma x out := by
  have hc := C07_multicubic_rectilinear_recursive fma hs h
  have hu := (C109_multicubic_rectilinear_recursive fma (M := M) grids vals lin).2 s
  exact ⟨((C109_multicubic_rectilinear_recursive fma (M := M) grids vals lin).1
      (by rw [h]; exact fun h => nomatch h)).trans h,
    fun x => hu.1 x ((hc).2.1 x), fun x out => hu.2 x out (hc.2.2 x out)⟩

/-- C109, `MulticubicRegular`: an interpolator that the checked build constructs is evaluated
alike at every observation whose cell number is not `isize::MIN` on any axis. -/
theorem C109_multicubic_regular_built {N : Nat} (fma : Bool) (hN : 0 < N) (hT : TotalOfUsize T)
    {dims : Fin N → Nat} {starts steps : Fin N → T} {vals : List T} {lin : Bool}
    (hs : IsSlice vals) {s : MulticubicRegular T N}
    (h : MulticubicRegular.new dims starts steps vals lin = .ok s) :
    Unchecked.MulticubicRegular.new dims starts steps vals lin = .ok s ∧
    (∀ x, (∀ k, toIsize (floor ((x k -. starts k) /. steps k)) ≠ some isizeMin) →
      Unchecked.MulticubicRegular.interpOne fma s x = s.interpOne fma x) ∧
    ∀ x out, (∀ i pt, PointAt x i pt →
        ∀ k, toIsize (floor ((pt k -. starts k) /. steps k)) ≠ some isizeMin) →
      Unchecked.MulticubicRegular.interp fma s x out = s.interp fma x out := by
  have hc := C07_multicubic_regular fma hN hT hs h
  have hu := (C109_multicubic_regular fma dims starts steps vals lin).2 s
  refine ⟨((C109_multicubic_regular fma dims starts steps vals lin).1
    (by rw [h]; exact fun h => nomatch h)).trans h,
    fun x hx => hu.1 x fun hp => ?_, fun x out hx => hu.2 x out fun hp => ?_⟩
  · obtain ⟨k, hk, _⟩ := (hc x).1.1 hp
    exact hx k hk
  · obtain ⟨i, pt, hpt, h2⟩ := BatchSpec.panic_at (s.interp_spec fma) hp
    obtain ⟨k, hk, _⟩ := (hc pt).1.1 h2
    exact hx i pt hpt k hk

/-- C109, `MulticubicRegularRecursive`, likewise. -/
theorem C109_multicubic_regular_recursive_built {N M : Nat} (fma : Bool) (hT : TotalOfUsize T)
    {dims : Fin N → Nat} {starts steps : Fin N → T} {vals : List T} {lin : Bool}
    (hs : IsSlice vals) {s : MulticubicRegularRecursive T M}
    (h : MulticubicRegularRecursive.new M (List.ofFn dims) (List.ofFn starts) (List.ofFn steps)
      vals lin = .ok s) :
    Unchecked.MulticubicRegularRecursive.new M (List.ofFn dims) (List.ofFn starts)
      (List.ofFn steps) vals lin = .ok s ∧
    (∀ x : Fin N → T, (∀ k, toIsize (floor ((x k -. starts k) /. steps k)) ≠ some isizeMin) →
      Unchecked.MulticubicRegularRecursive.interpOne fma s (List.ofFn x) =
        s.interpOne fma (List.ofFn x)) ∧
    (∀ x : List T, x.length ≠ N →
      Unchecked.MulticubicRegularRecursive.interpOne fma s x = s.interpOne fma x) ∧
    ∀ x out, (∀ i (pt : Fin N → T), PointAtL x i (List.ofFn pt) →
        ∀ k, toIsize (floor ((pt k -. starts k) /. steps k)) ≠ some isizeMin) →
      Unchecked.MulticubicRegularRecursive.interp fma s x out = s.interp fma x out := by
  have hc := C07_multicubic_regular_recursive fma hT hs h
  have hm := C07_multicubic_regular_recursive_mismatch fma h
  obtain ⟨_, hM, hn, _, _, _⟩ := MulticubicRegularRecursive.outcome fma h
  have hg := C109_multicubic_regular_recursive (M := M) fma (List.ofFn dims) (List.ofFn starts)
    (List.ofFn steps) vals lin
  have hu := hg.2 s
  refine ⟨(hg.1
      (by rw [h]; exact fun h => nomatch h)).trans h,
    fun x hx => hu.1 _ fun hp => ?_, fun x hx => hu.1 x fun hp => ?_,
    fun x out hx => hu.2 x out fun hp => ?_⟩
  · obtain ⟨k, hk, _⟩ := (hc x).1.1 hp
    exact hx k hk
  · rw [hm x (by simpa using hx)] at hp; cases hp
  · obtain ⟨i, pt, hpt, h2⟩ := BatchSpecL.panic_at (s.interp_spec fma (by rw [hn]; exact hM)) hp
    by_cases hl : pt.length = N
    · obtain ⟨y, rfl⟩ := exists_ofFn pt hl
      obtain ⟨k, hk, _⟩ := (hc y).1.1 h2
      exact hx i y hpt k hk
    · rw [hm pt (by simpa using hl)] at h2; cases h2

/-- C109, `multilinearRegularInterpn` and the allocating variant. -/
theorem C109_multilinear_regular_interpn (fma : Bool) (dims : List Nat) (starts steps vals : List T)
    (obs : List (List T)) :
    (∀ out, (multilinearRegularInterpn fma dims starts steps vals obs out).1 ≠ .panic →
      Unchecked.multilinearRegularInterpn fma dims starts steps vals obs out =
        multilinearRegularInterpn fma dims starts steps vals obs out) ∧
    (multilinearRegularInterpnAlloc fma dims starts steps vals obs ≠ .panic →
      Unchecked.multilinearRegularInterpnAlloc fma dims starts steps vals obs =
        multilinearRegularInterpnAlloc fma dims starts steps vals obs) :=
  ⟨fun _ => (LeOut.multilinearRegularInterpn ..).resolve_left,
    (Le.multilinearRegularInterpnAlloc ..).resolve_left⟩

/-- C109, `multilinearRegularRecursiveInterpn` and the allocating variant. -/
theorem C109_multilinear_regular_recursive_interpn (fma : Bool) (dims : List Nat)
    (starts steps vals : List T)
    (obs : List (List T)) :
    (∀ out, (multilinearRegularRecursiveInterpn fma dims starts steps vals obs out).1 ≠ .panic →
      Unchecked.multilinearRegularRecursiveInterpn fma dims starts steps vals obs out =
        multilinearRegularRecursiveInterpn fma dims starts steps vals obs out) ∧
    (multilinearRegularRecursiveInterpnAlloc fma dims starts steps vals obs ≠ .panic →
      Unchecked.multilinearRegularRecursiveInterpnAlloc fma dims starts steps vals obs =
        multilinearRegularRecursiveInterpnAlloc fma dims starts steps vals obs) :=
  ⟨fun _ => (LeOut.multilinearRegularRecursiveInterpn ..).resolve_left,
    (Le.multilinearRegularRecursiveInterpnAlloc ..).resolve_left⟩

/-- C109, `multilinearRectilinearInterpn` and the allocating variant. -/
theorem C109_multilinear_rectilinear_interpn (fma : Bool) (grids : List (List T)) (vals : List T)
    (obs : List (List T)) :
    (∀ out, (multilinearRectilinearInterpn fma grids vals obs out).1 ≠ .panic →
      Unchecked.multilinearRectilinearInterpn fma grids vals obs out =
        multilinearRectilinearInterpn fma grids vals obs out) ∧
    (multilinearRectilinearInterpnAlloc fma grids vals obs ≠ .panic →
      Unchecked.multilinearRectilinearInterpnAlloc fma grids vals obs =
        multilinearRectilinearInterpnAlloc fma grids vals obs) :=
  ⟨fun _ => (LeOut.multilinearRectilinearInterpn ..).resolve_left,
    (Le.multilinearRectilinearInterpnAlloc ..).resolve_left⟩

/-- C109, `multilinearRectilinearRecursiveInterpn` and the allocating variant. -/
theorem C109_multilinear_rectilinear_recursive_interpn (fma : Bool) (grids : List (List T))
    (vals : List T)
    (obs : List (List T)) :
    (∀ out, (multilinearRectilinearRecursiveInterpn fma grids vals obs out).1 ≠ .panic →
      Unchecked.multilinearRectilinearRecursiveInterpn fma grids vals obs out =
        multilinearRectilinearRecursiveInterpn fma grids vals obs out) ∧
    (multilinearRectilinearRecursiveInterpnAlloc fma grids vals obs ≠ .panic →
      Unchecked.multilinearRectilinearRecursiveInterpnAlloc fma grids vals obs =
        multilinearRectilinearRecursiveInterpnAlloc fma grids vals obs) :=
  ⟨fun _ => (LeOut.multilinearRectilinearRecursiveInterpn ..).resolve_left,
    (Le.multilinearRectilinearRecursiveInterpnAlloc ..).resolve_left⟩

/-- C109, `nearestRegularInterpn` and the allocating variant. -/
theorem C109_nearest_regular_interpn (fma : Bool) (dims : List Nat) (starts steps vals : List T)
    (obs : List (List T)) :
    (∀ out, (nearestRegularInterpn fma dims starts steps vals obs out).1 ≠ .panic →
      Unchecked.nearestRegularInterpn fma dims starts steps vals obs out =
        nearestRegularInterpn fma dims starts steps vals obs out) ∧
    (nearestRegularInterpnAlloc fma dims starts steps vals obs ≠ .panic →
      Unchecked.nearestRegularInterpnAlloc fma dims starts steps vals obs =
        nearestRegularInterpnAlloc fma dims starts steps vals obs) :=
  ⟨fun _ => (LeOut.nearestRegularInterpn ..).resolve_left,
    (Le.nearestRegularInterpnAlloc ..).resolve_left⟩

/-- C109, `nearestRectilinearInterpn` and the allocating variant. -/
theorem C109_nearest_rectilinear_interpn (grids : List (List T)) (vals : List T)
    (obs : List (List T)) :
    (∀ out, (nearestRectilinearInterpn grids vals obs out).1 ≠ .panic →
      Unchecked.nearestRectilinearInterpn grids vals obs out =
        nearestRectilinearInterpn grids vals obs out) ∧
    (nearestRectilinearInterpnAlloc grids vals obs ≠ .panic →
      Unchecked.nearestRectilinearInterpnAlloc grids vals obs =
        nearestRectilinearInterpnAlloc grids vals obs) :=
  ⟨fun _ => (LeOut.nearestRectilinearInterpn ..).resolve_left,
    (Le.nearestRectilinearInterpnAlloc ..).resolve_left⟩

/-- C109, `multicubicRegularInterpn` and the allocating variant. -/
theorem C109_multicubic_regular_interpn (fma : Bool) (dims : List Nat)
    (starts steps vals : List T) (lin : Bool)
    (obs : List (List T)) :
    (∀ out, (multicubicRegularInterpn fma dims starts steps vals lin obs out).1 ≠ .panic →
      Unchecked.multicubicRegularInterpn fma dims starts steps vals lin obs out =
        multicubicRegularInterpn fma dims starts steps vals lin obs out) ∧
    (multicubicRegularInterpnAlloc fma dims starts steps vals lin obs ≠ .panic →
      Unchecked.multicubicRegularInterpnAlloc fma dims starts steps vals lin obs =
        multicubicRegularInterpnAlloc fma dims starts steps vals lin obs) :=
  ⟨fun _ => (LeOut.multicubicRegularInterpn ..).resolve_left,
    (Le.multicubicRegularInterpnAlloc ..).resolve_left⟩

/-- C109, `multicubicRegularRecursiveInterpn` and the allocating variant. -/
theorem C109_multicubic_regular_recursive_interpn (fma : Bool) (dims : List Nat)
    (starts steps vals : List T) (lin : Bool)
    (obs : List (List T)) :
    (∀ out, (multicubicRegularRecursiveInterpn fma dims starts steps vals lin obs out).1 ≠ .panic →
      Unchecked.multicubicRegularRecursiveInterpn fma dims starts steps vals lin obs out =
        multicubicRegularRecursiveInterpn fma dims starts steps vals lin obs out) ∧
    (multicubicRegularRecursiveInterpnAlloc fma dims starts steps vals lin obs ≠ .panic →
      Unchecked.multicubicRegularRecursiveInterpnAlloc fma dims starts steps vals lin obs =
        multicubicRegularRecursiveInterpnAlloc fma dims starts steps vals lin obs) :=
  ⟨fun _ => (LeOut.multicubicRegularRecursiveInterpn ..).resolve_left,
    (Le.multicubicRegularRecursiveInterpnAlloc ..).resolve_left⟩

/-- C109, `multicubicRectilinearInterpn` and the allocating variant. -/
theorem C109_multicubic_rectilinear_interpn (fma : Bool) (grids : List (List T)) (vals : List T)
    (lin : Bool)
    (obs : List (List T)) :
    (∀ out, (multicubicRectilinearInterpn fma grids vals lin obs out).1 ≠ .panic →
      Unchecked.multicubicRectilinearInterpn fma grids vals lin obs out =
        multicubicRectilinearInterpn fma grids vals lin obs out) ∧
    (multicubicRectilinearInterpnAlloc fma grids vals lin obs ≠ .panic →
      Unchecked.multicubicRectilinearInterpnAlloc fma grids vals lin obs =
        multicubicRectilinearInterpnAlloc fma grids vals lin obs) :=
  ⟨fun _ => (LeOut.multicubicRectilinearInterpn ..).resolve_left,
    (Le.multicubicRectilinearInterpnAlloc ..).resolve_left⟩

/-- C109, `multicubicRectilinearRecursiveInterpn` and the allocating variant. -/
theorem C109_multicubic_rectilinear_recursive_interpn (fma : Bool) (grids : List (List T))
    (vals : List T) (lin : Bool)
    (obs : List (List T)) :
    (∀ out, (multicubicRectilinearRecursiveInterpn fma grids vals lin obs out).1 ≠ .panic →
      Unchecked.multicubicRectilinearRecursiveInterpn fma grids vals lin obs out =
        multicubicRectilinearRecursiveInterpn fma grids vals lin obs out) ∧
    (multicubicRectilinearRecursiveInterpnAlloc fma grids vals lin obs ≠ .panic →
      Unchecked.multicubicRectilinearRecursiveInterpnAlloc fma grids vals lin obs =
        multicubicRectilinearRecursiveInterpnAlloc fma grids vals lin obs) :=
  ⟨fun _ => (LeOut.multicubicRectilinearRecursiveInterpn ..).resolve_left,
    (Le.multicubicRectilinearRecursiveInterpnAlloc ..).resolve_left⟩

/-- C109, `check_bounds` on regular grids. -/
theorem C109_check_bounds (dims : List Nat) (starts steps : List T) (obs : List (List T))
    (atol : T) (out : List Bool) :
    ((checkBoundsRegular dims starts steps obs atol out).1 ≠ .panic →
      Unchecked.checkBoundsRegular dims starts steps obs atol out =
        checkBoundsRegular dims starts steps obs atol out) ∧
    ((checkBoundsRegularRecursive dims starts steps obs atol out).1 ≠ .panic →
      Unchecked.checkBoundsRegularRecursive dims starts steps obs atol out =
        checkBoundsRegularRecursive dims starts steps obs atol out) :=
  ⟨(LeOut.checkBoundsRegular ..).resolve_left,
    (LeOut.checkBoundsRegularRecursive ..).resolve_left⟩

/-- C109, `linspace`. -/
theorem C109_linspace (start stop : T) (n : Nat) (h : linspace start stop n ≠ .panic) :
    Unchecked.linspace start stop n = linspace start stop n :=
  (Le.linspace ..).resolve_left h

/-- C109, 1-D grids: construction and sampling. -/
theorem C109_grid1d (start step : T) (vals : List T) (g : RegularGrid1D T)
    (r : RectilinearGrid1D T) (x : T) :
    (RegularGrid1D.new start step vals ≠ .panic →
      Unchecked.RegularGrid1D.new start step vals = RegularGrid1D.new start step vals) ∧
    (g.at x ≠ .panic → Unchecked.RegularGrid1D.at g x = g.at x) ∧
    (r.at x ≠ .panic → Unchecked.RectilinearGrid1D.at r x = r.at x) :=
  ⟨(Le.RegularGrid1D_new ..).resolve_left, (Le.RegularGrid1D_at ..).resolve_left,
    (Le.RectilinearGrid1D_at ..).resolve_left⟩

/-- C109, 1-D interpolators on a regular grid: one point, a batch, an allocated batch. -/
theorem C109_one_dim_regular (fma : Bool) (g : RegularGrid1D T) (kind : Kind1D) :
    (∀ x, kind.evalOne fma g.at x ≠ .panic → kind.evalOne fma (Unchecked.RegularGrid1D.at g) x =
      kind.evalOne fma g.at x) ∧
    (∀ locs out, (eval1D (kind.evalOne fma g.at) locs out).1 ≠ .panic →
      eval1D (kind.evalOne fma (Unchecked.RegularGrid1D.at g)) locs out = eval1D
        (kind.evalOne fma g.at) locs out) ∧
    ∀ locs, evalAlloc1D (kind.evalOne fma g.at) locs ≠ .panic →
      evalAlloc1D (kind.evalOne fma (Unchecked.RegularGrid1D.at g)) locs = evalAlloc1D
        (kind.evalOne fma g.at) locs := by
  have h : ∀ x, Le (kind.evalOne fma g.at x) (kind.evalOne fma (Unchecked.RegularGrid1D.at g) x) :=
    Le.evalOne fma kind fun x => Le.RegularGrid1D_at g x
  exact ⟨fun x => (h x).resolve_left, fun _ _ => (LeOut.eval1D h ..).resolve_left,
    fun _ => (Le.evalAlloc1D h ..).resolve_left⟩

/-- C109, 1-D interpolators on a rectilinear grid. -/
theorem C109_one_dim_rectilinear (fma : Bool) (g : RectilinearGrid1D T) (kind : Kind1D) :
    (∀ x, kind.evalOne fma g.at x ≠ .panic →
      kind.evalOne fma (Unchecked.RectilinearGrid1D.at g) x = kind.evalOne fma g.at x) ∧
    (∀ locs out, (eval1D (kind.evalOne fma g.at) locs out).1 ≠ .panic →
      eval1D (kind.evalOne fma (Unchecked.RectilinearGrid1D.at g)) locs out = eval1D
        (kind.evalOne fma g.at) locs out) ∧
    ∀ locs, evalAlloc1D (kind.evalOne fma g.at) locs ≠ .panic →
      evalAlloc1D (kind.evalOne fma (Unchecked.RectilinearGrid1D.at g)) locs = evalAlloc1D
        (kind.evalOne fma g.at) locs := by
  have h : ∀ x, Le (kind.evalOne fma g.at x)
    (kind.evalOne fma (Unchecked.RectilinearGrid1D.at g) x) :=
    Le.evalOne fma kind fun x => Le.RectilinearGrid1D_at g x
  exact ⟨fun x => (h x).resolve_left, fun _ _ => (LeOut.eval1D h ..).resolve_left,
    fun _ => (Le.evalAlloc1D h ..).resolve_left⟩

/-- C109, `RectilinearGrid1D`: a constructed grid is sampled alike at every observation. -/
theorem C109_rectilinear1d_built {grid vals : List T} {g : RectilinearGrid1D T}
    (hs : IsSlice grid) (h : RectilinearGrid1D.new grid vals = .ok g) :
    Unchecked.RectilinearGrid1D.new grid vals = .ok g ∧
    ∀ x, Unchecked.RectilinearGrid1D.at g x = g.at x := by
  refine ⟨h, fun x => (Le.RectilinearGrid1D_at g x).resolve_left fun hp => ?_⟩
  unfold RectilinearGrid1D.new at h
  split at h
  · cases h
  · cases h
    rw [RectilinearGrid1D.at_ok (by omega) hs (by omega)] at hp
    cases hp

/-- C109, `RegularGrid1D`: a constructed grid is sampled alike at every observation; with a
single value both builds panic. -/
theorem C109_regular1d_built (hT : TotalOfUsize T) {start step : T} {vals : List T}
    {g : RegularGrid1D T} (hs : IsSlice vals) (h : RegularGrid1D.new start step vals = .ok g) :
    Unchecked.RegularGrid1D.new start step vals = .ok g ∧
    ∀ x, Unchecked.RegularGrid1D.at g x = g.at x := by
  refine ⟨((Le.RegularGrid1D_new ..).resolve_left (by rw [h]; exact fun h => nomatch h)).trans h,
    fun x => (Le.RegularGrid1D_at g x).elim (fun hp => ?_) id⟩
  have hne : vals ≠ [] := by rintro rfl; cases h
  obtain ⟨m, hm, hn⟩ := (C45_regular_new hT start step vals hs).2 hne
  rw [hn] at h; cases h
  rw [hp]
  have hz : toIsize (floor ((x -. start) /. step)) ≠ none := by
    intro hz
    rw [RegularGrid1D.at_err (show rawCell start step x = none from hz)] at hp; cases hp
  obtain ⟨z, hz⟩ := Option.ne_none_iff_exists'.1 hz
  have hl : vals.length = 1 := by
    have h1 := List.length_pos_iff.2 hne
    by_contra hc
    obtain ⟨f, hf⟩ := hT (clampIdx z (vals.length - 2)) (by
      have := clampIdx_le z (vals.length - 2)
      rw [isSlice_iff] at hs; simp only [isizeMax, usizeMax] at *; omega)
    rw [RegularGrid1D.at_ok (by omega) hs (show rawCell start step x = some z from hz) hf] at hp
    cases hp
  have hi : asUsize (min (max z 0) (asIsize (1 + 2 ^ 64 - 2))) = 2 ^ 64 - 1 := by
    have : asIsize (1 + 2 ^ 64 - 2) = -1 := by decide
    rw [this, min_eq_right (by omega)]; decide
  obtain ⟨f, hf⟩ := hT (2 ^ 64 - 1) (by decide)
  have hg : lget vals (2 ^ 64 - 1) = .panic := by
    unfold lget
    rw [List.getElem?_eq_none (by omega)]
  simp only [Unchecked.RegularGrid1D.at, Unchecked.RegularGrid1D.index, hz, Unchecked.usub, hl]
  rw [if_neg (by decide)]
  simp only [Res.ok_bind]
  rw [hi]
  simp only [pure, Res.ok_bind, hf, hg]
  rfl

end

/-! #### Concrete cases for C109 -/

section
attribute [local instance] ratOps

/-- `MultilinearRegular`: both builds give the same value. -/
example : (do
    let s ← MultilinearRegular.new (T := ℚ) (N := 2) ![2, 3] ![0, 1] ![1, 2] [1, 2, 3, 4, 5, 6]
    s.interpOne true ![1/2, 5]) = .ok (9 / 2) ∧ (do
    let s ← Unchecked.MultilinearRegular.new (T := ℚ)
      (N := 2) ![2, 3] ![0, 1] ![1, 2] [1, 2, 3, 4, 5, 6]
    Unchecked.MultilinearRegular.interpOne true s ![1/2, 5]) = .ok (9 / 2) := by decide +kernel

/-- `MultilinearRectilinear`: both builds give the same value. -/
example : (do
    let s ← MultilinearRectilinear.new (T := ℚ) (N := 2) ![[0, 1], [1, 3, 4]] [1, 2, 3, 4, 5, 6]
    s.interpOne true ![1/2, 5]) = .ok (11 / 2) ∧ (do
    let s ← Unchecked.MultilinearRectilinear.new (T := ℚ)
      (N := 2) ![[0, 1], [1, 3, 4]] [1, 2, 3, 4, 5, 6]
    Unchecked.MultilinearRectilinear.interpOne true s ![1/2, 5]) = .ok (11 / 2) := by decide +kernel

/-- `MultilinearRegularRecursive`: both builds give the same value. -/
example : (do
    let s ← MultilinearRegularRecursive.new (T := ℚ) 4 [2, 3] [0, 1] [1, 2] [1, 2, 3, 4, 5, 6]
    s.interpOne true [1/2, 5]) = .ok (9 / 2) ∧ (do
    let s ← Unchecked.MultilinearRegularRecursive.new
      (T := ℚ) 4 [2, 3] [0, 1] [1, 2] [1, 2, 3, 4, 5, 6]
    Unchecked.MultilinearRegularRecursive.interpOne true s [1/2, 5]) =
      .ok (9 / 2) := by decide +kernel

/-- `MultilinearRectilinearRecursive`: both builds give the same value. -/
example : (do
    let s ← MultilinearRectilinearRecursive.new (T := ℚ) 4 [[0, 1], [1, 3, 4]] [1, 2, 3, 4, 5, 6]
    s.interpOne true [1/2, 5]) = .ok (11 / 2) ∧ (do
    let s ← Unchecked.MultilinearRectilinearRecursive.new
      (T := ℚ) 4 [[0, 1], [1, 3, 4]] [1, 2, 3, 4, 5, 6]
    Unchecked.MultilinearRectilinearRecursive.interpOne true s [1/2, 5]) =
      .ok (11 / 2) := by decide +kernel

/-- `NearestRegular`: both builds give the same value. -/
example : (do
    let s ← NearestRegular.new (T := ℚ) (N := 2) ![2, 3] ![0, 1] ![1, 2] [1, 2, 3, 4, 5, 6]
    s.interpOne true ![1, 4]) = .ok 5 ∧ (do
    let s ← Unchecked.NearestRegular.new (T := ℚ)
      (N := 2) ![2, 3] ![0, 1] ![1, 2] [1, 2, 3, 4, 5, 6]
    Unchecked.NearestRegular.interpOne true s ![1, 4]) = .ok 5 := by decide +kernel

/-- `NearestRectilinear`: both builds give the same value. -/
example : (do
    let s ← NearestRectilinear.new (T := ℚ) (N := 2) ![[0, 1], [1, 3, 4]] [1, 2, 3, 4, 5, 6]
    s.interpOne ![1, 4]) = .ok 6 ∧ (do
    let s ← Unchecked.NearestRectilinear.new (T := ℚ)
      (N := 2) ![[0, 1], [1, 3, 4]] [1, 2, 3, 4, 5, 6]
    Unchecked.NearestRectilinear.interpOne s ![1, 4]) = .ok 6 := by decide +kernel

/-- `MulticubicRegular`: both builds give the same value. -/
example : (do
    let s ← MulticubicRegular.new (T := ℚ) (N := 1) ![4] ![0] ![1] [0, 1, 8, 27] true
    s.interpOne true ![-3/2]) = .ok 3 ∧ (do
    let s ← Unchecked.MulticubicRegular.new (T := ℚ) (N := 1) ![4] ![0] ![1] [0, 1, 8, 27] true
    Unchecked.MulticubicRegular.interpOne true s ![-3/2]) = .ok 3 := by decide +kernel

/-- `MulticubicRectilinear`: both builds give the same value. -/
example : (do
    let s ← MulticubicRectilinear.new (T := ℚ) (N := 1) ![[0, 1, 2, 4]] [0, 1, 8, 64] true
    s.interpOne true ![-3/2]) = .ok 3 ∧ (do
    let s ← Unchecked.MulticubicRectilinear.new (T := ℚ) (N := 1) ![[0, 1, 2, 4]] [0, 1, 8, 64] true
    Unchecked.MulticubicRectilinear.interpOne true s ![-3/2]) = .ok 3 := by decide +kernel

/-- `MulticubicRegularRecursive`: both builds give the same value. -/
example : (do
    let s ← MulticubicRegularRecursive.new (T := ℚ) 4 [4] [0] [1] [0, 1, 8, 27] true
    s.interpOne true [-3/2]) = .ok 3 ∧ (do
    let s ← Unchecked.MulticubicRegularRecursive.new (T := ℚ) 4 [4] [0] [1] [0, 1, 8, 27] true
    Unchecked.MulticubicRegularRecursive.interpOne true s [-3/2]) = .ok 3 := by decide +kernel

/-- `MulticubicRectilinearRecursive`: both builds give the same value. -/
example : (do
    let s ← MulticubicRectilinearRecursive.new (T := ℚ) 4 [[0, 1, 2, 4]] [0, 1, 8, 64] true
    s.interpOne true [-3/2]) = .ok 3 ∧ (do
    let s ← Unchecked.MulticubicRectilinearRecursive.new
      (T := ℚ) 4 [[0, 1, 2, 4]] [0, 1, 8, 64] true
    Unchecked.MulticubicRectilinearRecursive.interpOne true s [-3/2]) = .ok 3 := by decide +kernel


/-- The hypotheses of the `_built` theorems. -/
example : ∃ s, MultilinearRegular.new (T := ℚ) (N := 2) ![2, 3] ![0, 1] ![1, 2]
    [1, 2, 3, 4, 5, 6] = .ok s :=
  ⟨_, (C08_multilinear_regular ..).ok (by unfold ProductFits; decide) (by decide) (by decide) (by decide +kernel)⟩
example : ∃ s, MulticubicRectilinearRecursive.new (T := ℚ) 4 [[0, 1, 2, 4]] [0, 1, 8, 64] true =
    .ok s := ⟨_, rfl⟩
example : ∃ s, MulticubicRegularRecursive.new (T := ℚ) 4 [4] [0] [1] [0, 1, 8, 27] true =
    .ok s := ⟨_, rfl⟩
example : IsSlice ([1, 2, 3, 4, 5, 6] : List ℚ) := by unfold IsSlice; decide
example : TotalOfUsize ℚ := totalOfUsize_exact
example : toIsize (floor (((-3 / 2 : ℚ) -. 0) /. 1)) ≠ some isizeMin := by decide +kernel

/-- The module functions: two points at once, outcome and buffer. -/
example : multilinearRegularInterpn (T := ℚ) true [2, 3] [0, 1] [1, 2] [1, 2, 3, 4, 5, 6]
    [[0, 1/2], [1, 5]] [7, 8] = (.ok (), [1, 9/2]) ∧
    Unchecked.multilinearRegularInterpn (T := ℚ) true [2, 3] [0, 1] [1, 2] [1, 2, 3, 4, 5, 6]
    [[0, 1/2], [1, 5]] [7, 8] = (.ok (), [1, 9/2]) := by decide +kernel
example : multicubicRectilinearInterpnAlloc (T := ℚ) true [[0, 1, 2, 4]] [0, 1, 8, 64] true
    [[-3/2, 1]] = .ok [3, 1] ∧
    Unchecked.multicubicRectilinearInterpnAlloc (T := ℚ) true [[0, 1, 2, 4]] [0, 1, 8, 64] true
    [[-3/2, 1]] = .ok [3, 1] := by decide +kernel

/-- An error is the same error. -/
example : Unchecked.nearestRegularInterpnAlloc (T := ℚ) true [2, 3] [0, 1] [1, 2] [1, 2]
    [[0, 1/2], [1, 5]] = .err "Dimension mismatch" := by decide +kernel

example : checkBoundsRegular (T := ℚ) [2, 3] [0, 1] [1, 2] [[2], [1]] (1/10) [false, false] =
    (.ok (), [true, false]) ∧
    Unchecked.checkBoundsRegular (T := ℚ) [2, 3] [0, 1] [1, 2] [[2], [1]] (1/10) [false, false] =
    (.ok (), [true, false]) := by decide +kernel
example : linspace (T := ℚ) 1 2 3 = .ok [1, 3/2, 2] ∧
    Unchecked.linspace (T := ℚ) 1 2 3 = .ok [1, 3/2, 2] := by decide +kernel

/-- 1-D grids. -/
example : ∃ g, RegularGrid1D.new (T := ℚ) 0 1 [1, 2, 4] = .ok g ∧
    Kind1D.linear.evalOne true g.at (3/2) = .ok 3 ∧
    Kind1D.linear.evalOne true (Unchecked.RegularGrid1D.at g) (3/2) = .ok 3 :=
  ⟨_, rfl, by decide +kernel, by decide +kernel⟩
example : ∃ g, RectilinearGrid1D.new (T := ℚ) [0, 1, 3] [1, 2, 4] = .ok g ∧
    Kind1D.linear.evalOne true g.at (3/2) = .ok (5/2) ∧
    Kind1D.linear.evalOne true (Unchecked.RectilinearGrid1D.at g) (3/2) = .ok (5/2) :=
  ⟨_, rfl, by decide +kernel, by decide +kernel⟩

end

end Interpn
