import Verif.Lemmas.Outcome
import Verif.Lemmas.Batch
import Verif.Lemmas.ExactRules
import Verif.Lemmas.RatOps

/-! C05, C06, C07, C17: which evaluations succeed, fail and panic, after successful
construction. All theorems are for an arbitrary float type (NaN and infinities included).

`toIsize (floor ((x k -. starts k) /. steps k))` is the cell number of coordinate `k` on a
regular grid, `none` if it is not representable. `0 < N` is the compile-time assertion of the
source; `IsSlice` and `TotalOfUsize` are facts about Rust slices and floats
(`Spec/Slices.lean`). -/

set_option autoImplicit false

namespace Interpn
open FloatOps

section
variable {T : Type} [FloatOps T] {N M : Nat}

/-! #### Helpers -/

theorem linRegAxis_total (hT : TotalOfUsize T) (fma : Bool) {dim : Nat}
    (hd : dim ≤ usizeMax) (start step x : T) :
    linRegAxis fma dim start step x = none ↔ rawCell start step x = none := by
  rw [linRegAxis_eq_none]
  constructor
  · rintro (h | ⟨z, h, h2⟩)
    · exact h
    · obtain ⟨f, hf⟩ := hT (clampIdx z (dim - 2)) (by have := clampIdx_le z (dim - 2); omega)
      rw [hf] at h2; cases h2
  · exact Or.inl

theorem nearRegAxis_total (hT : TotalOfUsize T) (fma : Bool) {dim : Nat}
    (hd : dim ≤ usizeMax) (start step x : T) :
    nearRegAxis fma dim start step x = none ↔ rawCell start step x = none := by
  unfold nearRegAxis
  rw [Option.map_eq_none_iff, linRegAxis_total hT fma hd]

omit [FloatOps T] in
theorem exists_some_of_ne {α : Type} {N : Nat} {f : Fin N → Option α} (h : ¬ ∃ k, f k = none) :
    ∃ a : Fin N → α, ∀ k, f k = some (a k) := by
  have : ∀ k, ∃ a, f k = some a := by
    intro k
    cases hk : f k with
    | none => exact absurd ⟨k, hk⟩ h
    | some a => exact ⟨a, rfl⟩
  choose a ha using this
  exact ⟨a, ha⟩

omit [FloatOps T] in
theorem GoodVals.dim_max {m : Nat} {dims : Fin N → Nat} {vals : List T} (h : GoodVals m dims vals)
    (hm : 0 < m) (k : Fin N) : dims k ≤ usizeMax := (h.dim_le_len hm k).trans h.max

theorem MultilinearRegular.cases (fma : Bool) (hN : 0 < N) {dims : Fin N → Nat}
    {starts steps : Fin N → T} {vals : List T} (hs : IsSlice vals) {s : MultilinearRegular T N}
    (h : MultilinearRegular.new dims starts steps vals = .ok s) (x : Fin N → T) :
    (∃ v, s.interpOne fma x = .ok v) ∨ s.interpOne fma x = .err errRepr := by
  obtain ⟨rfl, hv, _⟩ := MultilinearRegular.new_ok h
  by_cases hex : ∃ k, linRegAxis fma (dims k) (starts k) (steps k) (x k) = none
  · exact .inr (MultilinearRegular.interpOne_err (s := ⟨dims, starts, steps, vals⟩) fma hN hv hs hex)
  · obtain ⟨a, ha⟩ := exists_some_of_ne hex
    exact .inl ⟨_, MultilinearRegular.interpOne_ok (s := ⟨dims, starts, steps, vals⟩) fma hN hv hs
      (samples_valAt zero _ _ hv.len) a ha⟩

theorem NearestRegular.cases (fma : Bool) {dims : Fin N → Nat}
    {starts steps : Fin N → T} {vals : List T} (hs : IsSlice vals) {s : NearestRegular T N}
    (h : NearestRegular.new dims starts steps vals = .ok s) (x : Fin N → T) :
    (∃ v, s.interpOne fma x = .ok v) ∨ s.interpOne fma x = .err errRepr := by
  obtain ⟨rfl, hv, _⟩ := NearestRegular.new_ok h
  by_cases hex : ∃ k, nearRegAxis fma (dims k) (starts k) (steps k) (x k) = none
  · exact .inr (NearestRegular.interpOne_err (s := ⟨dims, starts, steps, vals⟩) fma hv hs hex)
  · obtain ⟨a, ha⟩ := exists_some_of_ne hex
    exact .inl ⟨_, NearestRegular.interpOne_ok (s := ⟨dims, starts, steps, vals⟩) fma hv hs
      (samples_valAt zero _ _ hv.len) a ha⟩

/-! #### C05 -/

/-- C05, flattened evaluator on a regular grid: neither a single point nor a batch panics. -/
theorem C05_multilinear_regular (fma : Bool) (hN : 0 < N) {dims : Fin N → Nat}
    {starts steps : Fin N → T} {vals : List T} (hs : IsSlice vals) {s : MultilinearRegular T N}
    (h : MultilinearRegular.new dims starts steps vals = .ok s) :
    (∀ x, s.interpOne fma x ≠ .panic) ∧ ∀ x out, (s.interp fma x out).1 ≠ .panic := by
  have h1 : ∀ x, s.interpOne fma x ≠ .panic := by
    intro x hx
    rcases MultilinearRegular.cases fma hN hs h x with ⟨v, hv⟩ | hv <;> rw [hv] at hx <;> cases hx
  refine ⟨h1, fun x out hp => ?_⟩
  obtain ⟨pt, hpt⟩ := BatchSpec.panic (s.interp_spec fma) hp
  exact h1 pt hpt

/-- C05, flattened evaluator on a rectilinear grid. -/
theorem C05_multilinear_rectilinear (fma : Bool) (hN : 0 < N) {grids : Fin N → List T}
    {vals : List T} (hs : IsSlice vals) {s : MultilinearRectilinear T N}
    (h : MultilinearRectilinear.new grids vals = .ok s) :
    (∀ x, s.interpOne fma x ≠ .panic) ∧ ∀ x out, (s.interp fma x out).1 ≠ .panic := by
  have h1 : ∀ x, s.interpOne fma x ≠ .panic := by
    intro x hx
    obtain ⟨rfl, hv, _⟩ := MultilinearRectilinear.new_ok h
    rw [MultilinearRectilinear.interpOne_ok (s := ⟨grids, fun k => (grids k).length, vals⟩) fma hN
      (fun _ => rfl) hv hs (samples_valAt zero _ _ hv.len)] at hx
    cases hx
  refine ⟨h1, fun x out hp => ?_⟩
  obtain ⟨pt, hpt⟩ := BatchSpec.panic (s.interp_spec fma) hp
  exact h1 pt hpt

/-- C05, recursive evaluator on a regular grid; `x` may have any number of coordinates. -/
theorem C05_multilinear_regular_recursive (fma : Bool) {dims : List Nat}
    {starts steps vals : List T} (hs : IsSlice vals) {s : MultilinearRegularRecursive T M}
    (h : MultilinearRegularRecursive.new M dims starts steps vals = .ok s) :
    (∀ x, s.interpOne fma x ≠ .panic) ∧ ∀ x out, (s.interp fma x out).1 ≠ .panic := by
  obtain ⟨n, d, st, sp, rfl, rfl, rfl⟩ := MultilinearRegularRecursive.new_arrays h
  obtain ⟨hN, hM, hn, hv, _, ho⟩ := MultilinearRegularRecursive.outcome fma h
  have h1 : ∀ x, s.interpOne fma x ≠ .panic := by
    intro x hx
    by_cases hl : x.length = s.ndims
    · obtain ⟨y, rfl⟩ := exists_ofFn x (hl.trans hn)
      obtain ⟨hok, herr⟩ := ho hs _ (samples_valAt zero _ _ hv.len) y
      by_cases hex : ∃ k, linRegAxis false (d k) (st k) (sp k) (y k) = none
      · rw [herr hex] at hx; cases hx
      · obtain ⟨a, ha⟩ := exists_some_of_ne hex
        rw [hok a ha] at hx; cases hx
    · rw [MultilinearRegularRecursive.interpOne_mismatch fma hl] at hx; cases hx
  refine ⟨h1, fun x out hp => ?_⟩
  obtain ⟨pt, hpt⟩ := BatchSpecL.panic
    (s.interp_spec fma (by omega)) hp
  exact h1 pt hpt

/-- C05, recursive evaluator on a rectilinear grid. -/
theorem C05_multilinear_rectilinear_recursive (fma : Bool) {grids : List (List T)}
    {vals : List T} (hs : IsSlice vals) {s : MultilinearRectilinearRecursive T M}
    (h : MultilinearRectilinearRecursive.new M grids vals = .ok s) :
    (∀ x, s.interpOne fma x ≠ .panic) ∧ ∀ x out, (s.interp fma x out).1 ≠ .panic := by
  obtain ⟨n, gr, rfl⟩ := list_as_ofFn grids
  obtain ⟨hN, hM, hg, hv, _, ho⟩ := MultilinearRectilinearRecursive.outcome fma h
  have h1 : ∀ x, s.interpOne fma x ≠ .panic := by
    intro x hx
    by_cases hl : x.length = s.grids.length
    · obtain ⟨y, rfl⟩ := exists_ofFn x (hl.trans (by rw [hg, List.length_ofFn]))
      rw [ho hs _ (samples_valAt zero _ _ hv.len) y] at hx; cases hx
    · rw [MultilinearRectilinearRecursive.interpOne_mismatch fma hl] at hx; cases hx
  refine ⟨h1, fun x out hp => ?_⟩
  obtain ⟨pt, hpt⟩ := BatchSpecL.panic
    (s.interp_spec fma (by rw [hg, List.length_ofFn]; exact hM)) hp
  exact h1 pt hpt

/-! #### C06 -/

/-- C06, regular grid. -/
theorem C06_nearest_regular (fma : Bool) {dims : Fin N → Nat}
    {starts steps : Fin N → T} {vals : List T} (hs : IsSlice vals) {s : NearestRegular T N}
    (h : NearestRegular.new dims starts steps vals = .ok s) :
    (∀ x, s.interpOne fma x ≠ .panic) ∧ ∀ x out, (s.interp fma x out).1 ≠ .panic := by
  have h1 : ∀ x, s.interpOne fma x ≠ .panic := by
    intro x hx
    rcases NearestRegular.cases fma hs h x with ⟨v, hv⟩ | hv <;> rw [hv] at hx <;> cases hx
  refine ⟨h1, fun x out hp => ?_⟩
  obtain ⟨pt, hpt⟩ := BatchSpec.panic (s.interp_spec fma) hp
  exact h1 pt hpt

/-- C06, rectilinear grid. -/
theorem C06_nearest_rectilinear {grids : Fin N → List T}
    {vals : List T} (hs : IsSlice vals) {s : NearestRectilinear T N}
    (h : NearestRectilinear.new grids vals = .ok s) :
    (∀ x, s.interpOne x ≠ .panic) ∧ ∀ x out, (s.interp x out).1 ≠ .panic := by
  have h1 : ∀ x, s.interpOne x ≠ .panic := by
    intro x hx
    obtain ⟨rfl, hv, _⟩ := NearestRectilinear.new_ok h
    rw [NearestRectilinear.interpOne_ok (s := ⟨grids, fun k => (grids k).length, vals⟩)
      (fun _ => rfl) hv hs (samples_valAt zero _ _ hv.len)] at hx
    cases hx
  refine ⟨h1, fun x out hp => ?_⟩
  obtain ⟨pt, hpt⟩ := BatchSpec.panic (s.interp_spec) hp
  exact h1 pt hpt

/-! #### C07 -/

theorem cubRegAxis_cases (hT : TotalOfUsize T) {dim : Nat} (hd : dim ≤ usizeMax) (h4 : 4 ≤ dim)
    (start step x : T) :
    (rawCell start step x = none ∧ cubRegAxis dim start step x = .err errRepr) ∨
    (rawCell start step x = some isizeMin ∧ cubRegAxis dim start step x = .panic) ∨
    (rawCell start step x ≠ none ∧ rawCell start step x ≠ some isizeMin ∧
      ∃ a, cubRegAxis dim start step x = .ok a) := by
  unfold cubRegAxis
  cases hr : rawCell start step x with
  | none => exact .inl ⟨rfl, rfl⟩
  | some z =>
    by_cases hz : z = isizeMin
    · subst hz; exact .inr (.inl ⟨rfl, by simp⟩)
    · right; right
      refine ⟨by simp, by simpa using hz, ?_⟩
      obtain ⟨f, hf⟩ := hT (clampIdx (z - 1) (dim - 4) + 1)
        (by have := clampIdx_le (z - 1) (dim - 4); omega)
      simp only [hf, if_neg hz]
      exact ⟨_, rfl⟩

/-- Outcome of the cubic axis loop. -/
theorem cubic_outcome (hT : TotalOfUsize T) {dims : Fin N → Nat} (hd : ∀ k, dims k ≤ usizeMax)
    (h4 : ∀ k, 4 ≤ dims k) (starts steps x : Fin N → T)
    (F : (Fin N → Nat × Saturation × T) → T) (r : Res T)
    (hr : r = (axisLoop N (0, .none, zero) (fun i => do
        cubRegAxis (← aget dims i) (← aget starts i) (← aget steps i) (← aget x i)) >>=
      fun a => .ok (F a))) :
    (r = .panic ↔ ∃ k, rawCell (starts k) (steps k) (x k) = some isizeMin ∧
      ∀ j < k, rawCell (starts j) (steps j) (x j) ≠ none) ∧
    (r = .err errRepr ↔ ∃ k, rawCell (starts k) (steps k) (x k) = none ∧
      ∀ j < k, rawCell (starts j) (steps j) (x j) ≠ some isizeMin) ∧
    ((∃ v, r = .ok v) ↔ ∀ k, rawCell (starts k) (steps k) (x k) ≠ none ∧
      rawCell (starts k) (steps k) (x k) ≠ some isizeMin) := by
  have hf : ∀ k : Fin N, (do
        cubRegAxis (← aget dims k) (← aget starts k) (← aget steps k) (← aget x k)) =
      cubRegAxis (dims k) (starts k) (steps k) (x k) := fun k => by simp
  have hc := fun k => cubRegAxis_cases hT (hd k) (h4 k) (starts k) (steps k) (x k)
  rcases axisLoop_cases N (0, Saturation.none, zero) (fun i => do
        cubRegAxis (← aget dims i) (← aget starts i) (← aget steps i) (← aget x i)) with
    ⟨a, ha, hl⟩ | ⟨i, e, hpre, he, hl⟩ | ⟨i, hpre, he, hl⟩
  · rw [hl, Res.ok_bind] at hr
    have hall : ∀ k, rawCell (starts k) (steps k) (x k) ≠ none ∧
        rawCell (starts k) (steps k) (x k) ≠ some isizeMin := by
      intro k
      have := ha k
      rw [hf k] at this
      rcases hc k with ⟨_, h⟩ | ⟨_, h⟩ | ⟨h1, h2, _⟩
      · rw [h] at this; cases this
      · rw [h] at this; cases this
      · exact ⟨h1, h2⟩
    subst hr
    refine ⟨⟨fun h => (by cases h), ?_⟩, ⟨fun h => (by cases h), ?_⟩, fun _ => hall,
      fun _ => ⟨_, rfl⟩⟩
    · rintro ⟨k, hk, _⟩; exact absurd hk (hall k).2
    · rintro ⟨k, hk, _⟩; exact absurd hk (hall k).1
  · rw [hl, Res.err_bind] at hr
    rw [hf i] at he
    have hi : rawCell (starts i) (steps i) (x i) = none ∧ e = errRepr := by
      rcases hc i with ⟨h1, h⟩ | ⟨_, h⟩ | ⟨_, _, _, h⟩
      · rw [h] at he; cases he; exact ⟨h1, rfl⟩
      · rw [h] at he; cases he
      · rw [h] at he; cases he
    have hpre' : ∀ j < i, rawCell (starts j) (steps j) (x j) ≠ none ∧
        rawCell (starts j) (steps j) (x j) ≠ some isizeMin := by
      intro j hj
      obtain ⟨a, ha⟩ := hpre j hj
      rw [hf j] at ha
      rcases hc j with ⟨_, h⟩ | ⟨_, h⟩ | ⟨h1, h2, _⟩
      · rw [h] at ha; cases ha
      · rw [h] at ha; cases ha
      · exact ⟨h1, h2⟩
    obtain ⟨hi, rfl⟩ := hi
    subst hr
    refine ⟨⟨fun h => (by cases h), ?_⟩, ⟨fun _ => ⟨i, hi, fun j hj => (hpre' j hj).2⟩, fun _ => rfl⟩,
      ⟨fun ⟨v, h⟩ => (by cases h), fun h => absurd hi (h i).1⟩⟩
    rintro ⟨k, hk, hk'⟩
    rcases lt_trichotomy i k with h | h | h
    · exact absurd hi (hk' i h)
    · subst h; rw [hi] at hk; cases hk
    · exact absurd hk (hpre' k h).2
  · rw [hl, Res.panic_bind] at hr
    rw [hf i] at he
    have hi : rawCell (starts i) (steps i) (x i) = some isizeMin := by
      rcases hc i with ⟨h1, h⟩ | ⟨h1, h⟩ | ⟨_, _, _, h⟩
      · rw [h] at he; cases he
      · exact h1
      · rw [h] at he; cases he
    have hpre' : ∀ j < i, rawCell (starts j) (steps j) (x j) ≠ none ∧
        rawCell (starts j) (steps j) (x j) ≠ some isizeMin := by
      intro j hj
      obtain ⟨a, ha⟩ := hpre j hj
      rw [hf j] at ha
      rcases hc j with ⟨_, h⟩ | ⟨_, h⟩ | ⟨h1, h2, _⟩
      · rw [h] at ha; cases ha
      · rw [h] at ha; cases ha
      · exact ⟨h1, h2⟩
    subst hr
    refine ⟨⟨fun _ => ⟨i, hi, fun j hj => (hpre' j hj).1⟩, fun _ => rfl⟩, ⟨fun h => (by cases h), ?_⟩,
      ⟨fun ⟨v, h⟩ => (by cases h), fun h => absurd hi (h i).2⟩⟩
    rintro ⟨k, hk, hk'⟩
    rcases lt_trichotomy i k with h | h | h
    · exact absurd hi (hk' i h)
    · subst h; rw [hi] at hk; cases hk
    · exact absurd hk (hpre' k h).1

/-- C07, flattened evaluator on a regular grid: exactly when evaluation panics, errs,
succeeds. -/
theorem C07_multicubic_regular (fma : Bool) (hN : 0 < N) (hT : TotalOfUsize T)
    {dims : Fin N → Nat} {starts steps : Fin N → T} {vals : List T} {lin : Bool}
    (hs : IsSlice vals) {s : MulticubicRegular T N}
    (h : MulticubicRegular.new dims starts steps vals lin = .ok s) (x : Fin N → T) :
    (s.interpOne fma x = .panic ↔
      ∃ k, toIsize (floor ((x k -. starts k) /. steps k)) = some isizeMin ∧
        ∀ j < k, toIsize (floor ((x j -. starts j) /. steps j)) ≠ none) ∧
    (s.interpOne fma x = .err "Unrepresentable coordinate value" ↔
      ∃ k, toIsize (floor ((x k -. starts k) /. steps k)) = none ∧
        ∀ j < k, toIsize (floor ((x j -. starts j) /. steps j)) ≠ some isizeMin) ∧
    ((∃ v, s.interpOne fma x = .ok v) ↔
      ∀ k, toIsize (floor ((x k -. starts k) /. steps k)) ≠ none ∧
        toIsize (floor ((x k -. starts k) /. steps k)) ≠ some isizeMin) := by
  obtain ⟨rfl, hv, _⟩ := MulticubicRegular.new_ok h
  exact cubic_outcome hT (fun k => hv.dim_max (by omega) k) hv.min starts steps x _ _
    (MulticubicRegular.interpOne_eq (s := ⟨dims, starts, steps, vals, lin⟩) fma hN hv hs
      (samples_valAt zero _ _ hv.len))

/-- C07, recursive evaluator on a regular grid. -/
theorem C07_multicubic_regular_recursive (fma : Bool) (hT : TotalOfUsize T)
    {dims : Fin N → Nat} {starts steps : Fin N → T} {vals : List T} {lin : Bool}
    (hs : IsSlice vals) {s : MulticubicRegularRecursive T M}
    (h : MulticubicRegularRecursive.new M (List.ofFn dims) (List.ofFn starts) (List.ofFn steps)
      vals lin = .ok s) (x : Fin N → T) :
    (s.interpOne fma (List.ofFn x) = .panic ↔
      ∃ k, toIsize (floor ((x k -. starts k) /. steps k)) = some isizeMin ∧
        ∀ j < k, toIsize (floor ((x j -. starts j) /. steps j)) ≠ none) ∧
    (s.interpOne fma (List.ofFn x) = .err "Unrepresentable coordinate value" ↔
      ∃ k, toIsize (floor ((x k -. starts k) /. steps k)) = none ∧
        ∀ j < k, toIsize (floor ((x j -. starts j) /. steps j)) ≠ some isizeMin) ∧
    ((∃ v, s.interpOne fma (List.ofFn x) = .ok v) ↔
      ∀ k, toIsize (floor ((x k -. starts k) /. steps k)) ≠ none ∧
        toIsize (floor ((x k -. starts k) /. steps k)) ≠ some isizeMin) := by
  obtain ⟨hN, hM, hn, hv, _, ho⟩ := MulticubicRegularRecursive.outcome fma h
  exact cubic_outcome hT (fun k => hv.dim_max (by omega) k) hv.min starts steps x _ _
    (ho hs hT _ (samples_valAt zero _ _ hv.len) x)

/-- C07, recursive evaluator, wrong number of coordinates. -/
theorem C07_multicubic_regular_recursive_mismatch (fma : Bool) {dims : List Nat}
    {starts steps vals : List T} {lin : Bool} {s : MulticubicRegularRecursive T M}
    (h : MulticubicRegularRecursive.new M dims starts steps vals lin = .ok s) (x : List T)
    (hx : x.length ≠ dims.length) : s.interpOne fma x = .err "Dimension mismatch" := by
  obtain ⟨_, _, rfl⟩ := MulticubicRegularRecursive.new_ok h
  exact MulticubicRegularRecursive.interpOne_mismatch fma hx

/-- C07, flattened evaluator on a rectilinear grid: never panics, in fact always succeeds. -/
theorem C07_multicubic_rectilinear (fma : Bool) (hN : 0 < N) {grids : Fin N → List T}
    {vals : List T} {lin : Bool} (hs : IsSlice vals) {s : MulticubicRectilinear T N}
    (h : MulticubicRectilinear.new grids vals lin = .ok s) :
    (∀ x, ∃ v, s.interpOne fma x = .ok v) ∧ ∀ x out, (s.interp fma x out).1 ≠ .panic := by
  have h1 : ∀ x, ∃ v, s.interpOne fma x = .ok v := by
    intro x
    obtain ⟨rfl, hv, _⟩ := MulticubicRectilinear.new_ok h
    exact ⟨_, MulticubicRectilinear.interpOne_ok
      (s := ⟨grids, fun k => (grids k).length, vals, lin⟩) fma hN
      (fun _ => rfl) hv hs (samples_valAt zero _ _ hv.len)⟩
  refine ⟨h1, fun x out hp => ?_⟩
  obtain ⟨pt, hpt⟩ := BatchSpec.panic (s.interp_spec fma) hp
  obtain ⟨v, hv⟩ := h1 pt
  rw [hv] at hpt; cases hpt

/-- C07, recursive evaluator on a rectilinear grid. -/
theorem C07_multicubic_rectilinear_recursive (fma : Bool) {grids : List (List T)}
    {vals : List T} {lin : Bool} (hs : IsSlice vals) {s : MulticubicRectilinearRecursive T M}
    (h : MulticubicRectilinearRecursive.new M grids vals lin = .ok s) :
    (∀ x, x.length = grids.length → ∃ v, s.interpOne fma x = .ok v) ∧
    (∀ x, s.interpOne fma x ≠ .panic) ∧ ∀ x out, (s.interp fma x out).1 ≠ .panic := by
  obtain ⟨n, gr, rfl⟩ := list_as_ofFn grids
  obtain ⟨hN, hM, hg, hv, _, ho⟩ := MulticubicRectilinearRecursive.outcome fma h
  have h0 : ∀ x, x.length = s.grids.length → ∃ v, s.interpOne fma x = .ok v := by
    intro x hl
    obtain ⟨y, rfl⟩ := exists_ofFn x (hl.trans (by rw [hg, List.length_ofFn]))
    exact ⟨_, ho hs _ (samples_valAt zero _ _ hv.len) y⟩
  have h1 : ∀ x, s.interpOne fma x ≠ .panic := by
    intro x hx
    by_cases hl : x.length = s.grids.length
    · obtain ⟨v, hv⟩ := h0 x hl
      rw [hv] at hx; cases hx
    · rw [MulticubicRectilinearRecursive.interpOne_mismatch fma hl] at hx; cases hx
  refine ⟨fun x hx => h0 x (by rw [hx, hg]), h1, fun x out hp => ?_⟩
  obtain ⟨pt, hpt⟩ := BatchSpecL.panic
    (s.interp_spec fma (by rw [hg, List.length_ofFn]; exact hM)) hp
  exact h1 pt hpt

/-! #### C17 -/

/-- C17, multilinear on a regular grid. -/
theorem C17_multilinear_regular (fma : Bool) (hN : 0 < N) (hT : TotalOfUsize T)
    {dims : Fin N → Nat} {starts steps : Fin N → T} {vals : List T} (hs : IsSlice vals)
    {s : MultilinearRegular T N} (h : MultilinearRegular.new dims starts steps vals = .ok s)
    (x : Fin N → T) :
    ((∀ k, toIsize (floor ((x k -. starts k) /. steps k)) ≠ none) → ∃ v, s.interpOne fma x = .ok v) ∧
    ((∃ k, toIsize (floor ((x k -. starts k) /. steps k)) = none) →
      s.interpOne fma x = .err "Unrepresentable coordinate value") := by
  obtain ⟨rfl, hv, _⟩ := MultilinearRegular.new_ok h
  have key := fun k => linRegAxis_total hT fma (hv.dim_max (by omega) k) (starts k) (steps k) (x k)
  constructor
  · intro hall
    obtain ⟨a, ha⟩ := exists_some_of_ne
      (f := fun k => linRegAxis fma (dims k) (starts k) (steps k) (x k))
      (fun ⟨k, hk⟩ => hall k ((key k).1 hk))
    exact ⟨_, MultilinearRegular.interpOne_ok (s := ⟨dims, starts, steps, vals⟩) fma hN hv hs
      (samples_valAt zero _ _ hv.len) a ha⟩
  · rintro ⟨k, hk⟩
    exact MultilinearRegular.interpOne_err (s := ⟨dims, starts, steps, vals⟩) fma hN hv hs
      ⟨k, (key k).2 hk⟩

/-- C17, recursive multilinear on a regular grid. -/
theorem C17_multilinear_regular_recursive (fma : Bool) (hT : TotalOfUsize T)
    {dims : Fin N → Nat} {starts steps : Fin N → T} {vals : List T} (hs : IsSlice vals)
    {s : MultilinearRegularRecursive T M}
    (h : MultilinearRegularRecursive.new M (List.ofFn dims) (List.ofFn starts) (List.ofFn steps)
      vals = .ok s)
    (x : Fin N → T) :
    ((∀ k, toIsize (floor ((x k -. starts k) /. steps k)) ≠ none) →
      ∃ v, s.interpOne fma (List.ofFn x) = .ok v) ∧
    ((∃ k, toIsize (floor ((x k -. starts k) /. steps k)) = none) →
      s.interpOne fma (List.ofFn x) = .err "Unrepresentable coordinate value") := by
  obtain ⟨hN, hM, hn, hv, _, ho⟩ := MultilinearRegularRecursive.outcome fma h
  obtain ⟨hok, herr⟩ := ho hs _ (samples_valAt zero _ _ hv.len) x
  have key := fun k => linRegAxis_total hT false (hv.dim_max (by omega) k) (starts k) (steps k) (x k)
  constructor
  · intro hall
    obtain ⟨a, ha⟩ := exists_some_of_ne
      (f := fun k => linRegAxis false (dims k) (starts k) (steps k) (x k))
      (fun ⟨k, hk⟩ => hall k ((key k).1 hk))
    exact ⟨_, hok a ha⟩
  · rintro ⟨k, hk⟩
    exact herr ⟨k, (key k).2 hk⟩

/-- C17, nearest neighbor on a regular grid. -/
theorem C17_nearest_regular (fma : Bool) (hT : TotalOfUsize T)
    {dims : Fin N → Nat} {starts steps : Fin N → T} {vals : List T} (hs : IsSlice vals)
    {s : NearestRegular T N} (h : NearestRegular.new dims starts steps vals = .ok s)
    (x : Fin N → T) :
    ((∀ k, toIsize (floor ((x k -. starts k) /. steps k)) ≠ none) → ∃ v, s.interpOne fma x = .ok v) ∧
    ((∃ k, toIsize (floor ((x k -. starts k) /. steps k)) = none) →
      s.interpOne fma x = .err "Unrepresentable coordinate value") := by
  obtain ⟨rfl, hv, _⟩ := NearestRegular.new_ok h
  have key := fun k => nearRegAxis_total hT fma (hv.dim_max (by omega) k) (starts k) (steps k) (x k)
  constructor
  · intro hall
    obtain ⟨a, ha⟩ := exists_some_of_ne
      (f := fun k => nearRegAxis fma (dims k) (starts k) (steps k) (x k))
      (fun ⟨k, hk⟩ => hall k ((key k).1 hk))
    exact ⟨_, NearestRegular.interpOne_ok (s := ⟨dims, starts, steps, vals⟩) fma hv hs
      (samples_valAt zero _ _ hv.len) a ha⟩
  · rintro ⟨k, hk⟩
    exact NearestRegular.interpOne_err (s := ⟨dims, starts, steps, vals⟩) fma hv hs
      ⟨k, (key k).2 hk⟩

/-- C17, rectilinear grids: always a value. -/
theorem C17_multilinear_rectilinear (fma : Bool) (hN : 0 < N) {grids : Fin N → List T}
    {vals : List T} (hs : IsSlice vals) {s : MultilinearRectilinear T N}
    (h : MultilinearRectilinear.new grids vals = .ok s) (x : Fin N → T) :
    ∃ v, s.interpOne fma x = .ok v := by
  obtain ⟨rfl, hv, _⟩ := MultilinearRectilinear.new_ok h
  exact ⟨_, MultilinearRectilinear.interpOne_ok (s := ⟨grids, fun k => (grids k).length, vals⟩) fma
    hN (fun _ => rfl) hv hs (samples_valAt zero _ _ hv.len)⟩

/-- C17, recursive evaluator on rectilinear grids: always a value. -/
theorem C17_multilinear_rectilinear_recursive (fma : Bool) {grids : List (List T)}
    {vals : List T} (hs : IsSlice vals) {s : MultilinearRectilinearRecursive T M}
    (h : MultilinearRectilinearRecursive.new M grids vals = .ok s) (x : List T)
    (hx : x.length = grids.length) : ∃ v, s.interpOne fma x = .ok v := by
  obtain ⟨n, gr, rfl⟩ := list_as_ofFn grids
  obtain ⟨hN, hM, hg, hv, _, ho⟩ := MultilinearRectilinearRecursive.outcome fma h
  obtain ⟨y, rfl⟩ := exists_ofFn x (hx.trans (by rw [List.length_ofFn]))
  exact ⟨_, ho hs _ (samples_valAt zero _ _ hv.len) y⟩

/-- C17, nearest neighbor on rectilinear grids: always a value. -/
theorem C17_nearest_rectilinear {grids : Fin N → List T}
    {vals : List T} (hs : IsSlice vals) {s : NearestRectilinear T N}
    (h : NearestRectilinear.new grids vals = .ok s) (x : Fin N → T) :
    ∃ v, s.interpOne x = .ok v := by
  obtain ⟨rfl, hv, _⟩ := NearestRectilinear.new_ok h
  exact ⟨_, NearestRectilinear.interpOne_ok (s := ⟨grids, fun k => (grids k).length, vals⟩)
    (fun _ => rfl) hv hs (samples_valAt zero _ _ hv.len)⟩

end

/-! #### Concrete cases -/

section
attribute [local instance] ratOps

/-- Constructed interpolators exist, with values far outside the grid. -/
example : (do
    let s ← MultilinearRegular.new (T := ℚ) (N := 2) ![2, 3] ![0, 1] ![1, 2] [1, 2, 3, 4, 5, 6]
    s.interpOne true ![-1000, 10 ^ 6]) = .ok (1 - 3000 + 999999 / 2) := by
  decide +kernel

example : IsSlice ([1, 2, 3, 4, 5, 6] : List ℚ) := by unfold IsSlice; decide
example : TotalOfUsize ℚ := totalOfUsize_exact

/-- An unrepresentable coordinate is an error. -/
example : (do
    let s ← NearestRegular.new (T := ℚ) (N := 2) ![2, 3] ![0, 1] ![1, 2] [1, 2, 3, 4, 5, 6]
    s.interpOne true ![1, 2 ^ 64 + 1]) = .err "Unrepresentable coordinate value" := by
  decide +kernel

/-- The panic of C07 is real: cell number `isize::MIN`. -/
example : (do
    let s ← MulticubicRegular.new (T := ℚ) (N := 1) ![4] ![0] ![1] [1, 2, 3, 4] false
    s.interpOne true ![-(2 ^ 63)]) = .panic := by decide +kernel

/-- One below, it is an error; one above, a value. -/
example : (do
    let s ← MulticubicRegular.new (T := ℚ) (N := 1) ![4] ![0] ![1] [1, 2, 3, 4] true
    s.interpOne true ![-(2 ^ 63) - 1]) = .err "Unrepresentable coordinate value" := by
  decide +kernel
example : (do
    let s ← MulticubicRegular.new (T := ℚ) (N := 1) ![4] ![0] ![1] [1, 2, 3, 4] true
    s.interpOne true ![-(2 ^ 63) + 1]) = .ok (-(2 ^ 63) + 2) := by decide +kernel

/-- An unsorted rectilinear grid still evaluates. -/
example : (do
    let s ← MultilinearRectilinearRecursive.new (T := ℚ) 2 [[0, 1, 1/2, 7, 3]] [1, 2, 3, 4, 5]
    s.interpOne true [2]) ≠ .panic := by decide +kernel

end

end Interpn
