import Verif.Lemmas.Outcome
import Verif.Lemmas.Batch
import Verif.Lemmas.RatOps

/-! C08: constructors; C14: the capacity `MAXDIMS` of the recursive interpolators. -/

set_option autoImplicit false

namespace Interpn
open FloatOps

section
variable {T : Type} [FloatOps T] {N M : Nat}

/-! #### Helpers -/

theorem checkRegular_spec {α : Type} (m : Nat) (msg : String) (dims : List Nat)
    (steps vals : List T) (good : Res α) :
    RegularNewSpec m msg dims steps vals
      (checkRegular m msg dims steps vals >>= fun _ => good) good where
  overflow h := by unfold checkRegular; rw [uprod_overflow h]; rfl
  mismatch h h1 := by unfold checkRegular; rw [uprod_fits h, Res.ok_bind, if_pos h1]; rfl
  small h h1 h2 := by
    unfold checkRegular
    rw [uprod_fits h, Res.ok_bind, if_neg (not_not.2 h1), if_pos (by simpa using h2)]; rfl
  step h h1 h2 h3 := by
    unfold checkRegular
    rw [uprod_fits h, Res.ok_bind, if_neg (not_not.2 h1), if_neg (by simpa using h2),
      if_pos (by simpa using h3)]; rfl
  ok h h1 h2 h3 := by rw [checkRegular_eq_ok.2 ⟨h, h1, h2, h3⟩]; rfl

theorem secondExceedsFirst_iff (g : List T) : SecondExceedsFirst g ↔ firstPairOk g := by
  unfold SecondExceedsFirst firstPairOk
  constructor
  · rintro ⟨a, b, rest, rfl, h⟩
    simpa using h
  · intro h
    match g, h with
    | [], h => simp at h
    | [a], h => simp at h
    | a :: b :: rest, h => exact ⟨a, b, rest, rfl, by simpa using h⟩

theorem checkRectilinear_spec {α : Type} (m : Nat) (hm : 2 ≤ m) (msg : String)
    (grids : List (List T)) (vals : List T) (good : Res α) :
    RectilinearNewSpec m msg grids vals
      (checkRectilinear m msg grids vals >>= fun _ => good) good where
  overflow h := by unfold checkRectilinear; simp only; rw [uprod_overflow h]; rfl
  mismatch h h1 := by
    unfold checkRectilinear; simp only; rw [uprod_fits h, Res.ok_bind, if_pos h1]; rfl
  small h h1 h2 := by
    unfold checkRectilinear
    simp only
    rw [uprod_fits h, Res.ok_bind, if_neg (not_not.2 h1), if_pos (by simpa using h2)]; rfl
  order h h1 h2 h3 := by
    unfold checkRectilinear
    simp only
    rw [uprod_fits h, Res.ok_bind, if_neg (not_not.2 h1), if_neg (by simpa using h2)]
    obtain ⟨b, hb, hiff⟩ := allFirstPairs_eq grids (fun g hg => le_trans hm (h2 g hg))
    rw [hb, Res.ok_bind]
    have : b = false := by
      cases b
      · rfl
      · obtain ⟨g, hg, hn⟩ := h3
        exact absurd ((secondExceedsFirst_iff g).2 (hiff.1 rfl g hg)) hn
    subst this
    rfl
  ok h h1 h2 h3 := by
    rw [(checkRectilinear_eq_ok hm).2 ⟨h, h1, h2, fun g hg => (secondExceedsFirst_iff g).1 (h3 g hg)⟩]
    rfl

/-! #### C08 -/

/-- C08, `MultilinearRegular::new`. -/
theorem C08_multilinear_regular (dims : Fin N → Nat) (starts steps : Fin N → T) (vals : List T) :
    RegularNewSpec 2 "All grids must have at least two entries" (List.ofFn dims)
      (List.ofFn steps) vals (MultilinearRegular.new dims starts steps vals)
      (.ok { dims, starts, steps, vals }) := by
  rw [MultilinearRegular.new_form]; exact checkRegular_spec _ _ _ _ _ _

/-- C08, `NearestRegular::new`. -/
theorem C08_nearest_regular (dims : Fin N → Nat) (starts steps : Fin N → T) (vals : List T) :
    RegularNewSpec 2 "All grids must have at least two entries" (List.ofFn dims)
      (List.ofFn steps) vals (NearestRegular.new dims starts steps vals)
      (.ok { dims, starts, steps, vals }) := by
  rw [NearestRegular.new_form]; exact checkRegular_spec _ _ _ _ _ _

/-- C08, `MulticubicRegular::new`. -/
theorem C08_multicubic_regular (dims : Fin N → Nat) (starts steps : Fin N → T) (vals : List T)
    (lin : Bool) :
    RegularNewSpec 4 "All grids must have at least four entries" (List.ofFn dims)
      (List.ofFn steps) vals (MulticubicRegular.new dims starts steps vals lin)
      (.ok { dims, starts, steps, vals, lin }) := by
  rw [MulticubicRegular.new_form]; exact checkRegular_spec _ _ _ _ _ _

/-- C08, `MultilinearRectilinear::new`. -/
theorem C08_multilinear_rectilinear (grids : Fin N → List T) (vals : List T) :
    RectilinearNewSpec 2 "All grids must have at least 2 entries" (List.ofFn grids) vals
      (MultilinearRectilinear.new grids vals)
      (.ok { grids, dims := fun k => (grids k).length, vals }) := by
  rw [MultilinearRectilinear.new_form]; exact checkRectilinear_spec _ le_rfl _ _ _ _

/-- C08, `NearestRectilinear::new`. -/
theorem C08_nearest_rectilinear (grids : Fin N → List T) (vals : List T) :
    RectilinearNewSpec 2 "All grids must have at least 2 entries" (List.ofFn grids) vals
      (NearestRectilinear.new grids vals)
      (.ok { grids, dims := fun k => (grids k).length, vals }) := by
  rw [NearestRectilinear.new_form]; exact checkRectilinear_spec _ le_rfl _ _ _ _

/-- C08, `MulticubicRectilinear::new`. -/
theorem C08_multicubic_rectilinear (grids : Fin N → List T) (vals : List T) (lin : Bool) :
    RectilinearNewSpec 4 "All grids must have at least 4 entries" (List.ofFn grids) vals
      (MulticubicRectilinear.new grids vals lin)
      (.ok { grids, dims := fun k => (grids k).length, vals, lin }) := by
  rw [MulticubicRectilinear.new_form]; exact checkRectilinear_spec _ (by omega) _ _ _ _

/-- C08, recursive regular constructors: additional run-time length checks. -/
theorem C08_multilinear_regular_recursive_lengths (dims : List Nat) (starts steps vals : List T)
    (hf : ProductFits dims)
    (h : starts.length ≠ dims.length ∨ steps.length ≠ dims.length ∨ dims = []) :
    MultilinearRegularRecursive.new M dims starts steps vals = .err "Dimension mismatch" := by
  have : ¬ (starts.length = dims.length ∧ steps.length = dims.length ∧ 0 < dims.length) := by
    rintro ⟨h1, h2, h3⟩
    rcases h with h | h | h
    · exact h h1
    · exact h h2
    · subst h; simp at h3
  rw [MultilinearRegularRecursive.new_form]; unfold checkRegularRec
  simp only
  rw [uprod_fits hf, Res.ok_bind, if_pos]
  · rfl
  · simp only [Bool.not_eq_true', ← Bool.not_eq_true, Bool.and_eq_true, decide_eq_true_eq]
    tauto

/-- C08, recursive regular constructor with matching lengths. -/
theorem C08_multilinear_regular_recursive (dims : List Nat) (starts steps vals : List T)
    (h1 : starts.length = dims.length) (h2 : steps.length = dims.length) (h0 : dims ≠ []) :
    ∃ s, (dims.length ≤ M → ∃ s', s = Res.ok s') ∧ (M < dims.length → s = .panic) ∧
    RegularNewSpec 2 "All grids must have at least two entries" dims steps vals
      (MultilinearRegularRecursive.new M dims starts steps vals) s := by
  rw [MultilinearRegularRecursive.new_form]
  rw [checkRegularRec_eq h1 h2 (List.length_pos_iff.2 h0)]
  refine ⟨_, ?_, ?_, checkRegular_spec _ _ _ _ _ _⟩
  · intro hM
    rw [padTo_ok _ _ (by omega), padTo_ok _ _ (by omega), padTo_ok _ _ (by omega)]
    exact ⟨_, rfl⟩
  · intro hM
    unfold padTo
    rw [if_neg (by omega)]; rfl

/-- C08, recursive cubic regular constructors: additional run-time length checks. -/
theorem C08_multicubic_regular_recursive_lengths (dims : List Nat) (starts steps vals : List T)
    (lin : Bool) (hf : ProductFits dims)
    (h : starts.length ≠ dims.length ∨ steps.length ≠ dims.length ∨ dims = []) :
    MulticubicRegularRecursive.new M dims starts steps vals lin = .err "Dimension mismatch" := by
  have : ¬ (starts.length = dims.length ∧ steps.length = dims.length ∧ 0 < dims.length) := by
    rintro ⟨h1, h2, h3⟩
    rcases h with h | h | h
    · exact h h1
    · exact h h2
    · subst h; simp at h3
  rw [MulticubicRegularRecursive.new_form]; unfold checkRegularRec
  simp only
  rw [uprod_fits hf, Res.ok_bind, if_pos]
  · rfl
  · simp only [Bool.not_eq_true', ← Bool.not_eq_true, Bool.and_eq_true, decide_eq_true_eq]
    tauto

/-- C08, recursive cubic regular constructor with matching lengths. -/
theorem C08_multicubic_regular_recursive (dims : List Nat) (starts steps vals : List T)
    (lin : Bool)
    (h1 : starts.length = dims.length) (h2 : steps.length = dims.length) (h0 : dims ≠ []) :
    ∃ s, (dims.length ≤ M → ∃ s', s = Res.ok s') ∧ (M < dims.length → s = .panic) ∧
    RegularNewSpec 4 "All grids must have at least four entries" dims steps vals
      (MulticubicRegularRecursive.new M dims starts steps vals lin) s := by
  rw [MulticubicRegularRecursive.new_form]
  rw [checkRegularRec_eq h1 h2 (List.length_pos_iff.2 h0)]
  refine ⟨_, ?_, ?_, checkRegular_spec _ _ _ _ _ _⟩
  · intro hM
    rw [padTo_ok _ _ (by omega), padTo_ok _ _ (by omega), padTo_ok _ _ (by omega)]
    exact ⟨_, rfl⟩
  · intro hM
    unfold padTo
    rw [if_neg (by omega)]; rfl

/-- C08, recursive rectilinear constructor with `1..=MAXDIMS` grids. -/
theorem C08_multilinear_rectilinear_recursive (grids : List (List T)) (vals : List T)
    (h0 : grids ≠ []) (hM : grids.length ≤ M) :
    ∃ s, RectilinearNewSpec 2 "All grids must have at least 2 entries" grids vals
      (MultilinearRectilinearRecursive.new M grids vals) (.ok s) := by
  rw [MultilinearRectilinearRecursive.new_eq (List.length_pos_iff.2 h0) hM]
  exact ⟨_, checkRectilinear_spec _ le_rfl _ _ _ _⟩

/-- C08, recursive cubic rectilinear constructor with `1..=MAXDIMS` grids. -/
theorem C08_multicubic_rectilinear_recursive (grids : List (List T)) (vals : List T) (lin : Bool)
    (h0 : grids ≠ []) (hM : grids.length ≤ M) :
    ∃ s, RectilinearNewSpec 4 "All grids must have at least 4 entries" grids vals
      (MulticubicRectilinearRecursive.new M grids vals lin) (.ok s) := by
  rw [MulticubicRectilinearRecursive.new_eq (List.length_pos_iff.2 h0) hM]
  exact ⟨_, checkRectilinear_spec _ (by omega) _ _ _ _⟩

/-- C08, recursive rectilinear constructors without grids. -/
theorem C08_rectilinear_recursive_empty (vals : List T) (lin : Bool) :
    MultilinearRectilinearRecursive.new M [] vals = .err "Dimension mismatch" ∧
    MulticubicRectilinearRecursive.new M [] vals lin = .err "Dimension mismatch" := by
  constructor <;>
    simp [MultilinearRectilinearRecursive.new, MulticubicRectilinearRecursive.new,
      uprod, uprodFrom]

/-! #### C14 -/

/-- C14: more axes than `MAXDIMS` panic in the regular constructor once the other checks pass
(and a length mismatch is still reported as an error). -/
theorem C14_multilinear_regular_panics (dims : List Nat) (starts steps vals : List T)
    (h1 : starts.length = dims.length) (h2 : steps.length = dims.length)
    (hf : ProductFits dims) (hv : vals.length = dims.prod) (hd : ∀ d ∈ dims, 2 ≤ d)
    (hst : ∀ h ∈ steps, (zero <. h) = true) (hM : M < dims.length) :
    MultilinearRegularRecursive.new M dims starts steps vals = .panic := by
  obtain ⟨s, _, hp, hspec⟩ := C08_multilinear_regular_recursive (M := M) dims starts steps vals
    h1 h2 (by rintro rfl; simp at hM)
  rw [hspec.ok hf hv hd hst, hp hM]

/-- C14, cubic. -/
theorem C14_multicubic_regular_panics (dims : List Nat) (starts steps vals : List T) (lin : Bool)
    (h1 : starts.length = dims.length) (h2 : steps.length = dims.length)
    (hf : ProductFits dims) (hv : vals.length = dims.prod) (hd : ∀ d ∈ dims, 4 ≤ d)
    (hst : ∀ h ∈ steps, (zero <. h) = true) (hM : M < dims.length) :
    MulticubicRegularRecursive.new M dims starts steps vals lin = .panic := by
  obtain ⟨s, _, hp, hspec⟩ := C08_multicubic_regular_recursive (M := M) dims starts steps vals lin
    h1 h2 (by rintro rfl; simp at hM)
  rw [hspec.ok hf hv hd hst, hp hM]

/-- C14: more grids than `MAXDIMS` panic in the rectilinear constructors, whatever the rest. -/
theorem C14_rectilinear_panics (grids : List (List T)) (vals : List T) (lin : Bool)
    (hM : M < grids.length) :
    MultilinearRectilinearRecursive.new M grids vals = .panic ∧
    MulticubicRectilinearRecursive.new M grids vals lin = .panic := by
  rw [MultilinearRectilinearRecursive.new_form, MulticubicRectilinearRecursive.new_form]
  unfold checkRectilinearRec padTo
  rw [if_neg (by simpa using hM)]
  exact ⟨rfl, rfl⟩

omit [FloatOps T] in
theorem interpBatchRec_capacity {M₁ M₂ n : Nat} (h1 : n ≤ M₁) (h2 : n ≤ M₂) (z : T)
    (one₁ one₂ : List T → Res T) (h : ∀ x, one₁ x = one₂ x) (x : List (List T)) (out : List T) :
    interpBatchRec M₁ n z one₁ x out = interpBatchRec M₂ n z one₂ x out := by
  have : one₁ = one₂ := funext h
  subst this
  unfold interpBatchRec
  simp only [h1, h2, if_true]

/-- C14: the capacity does not influence results. -/
theorem C14_multilinear_regular (fma : Bool) {M₁ M₂ : Nat} {dims : List Nat}
    {starts steps vals : List T} (hs : IsSlice vals)
    {s₁ : MultilinearRegularRecursive T M₁} {s₂ : MultilinearRegularRecursive T M₂}
    (h₁ : MultilinearRegularRecursive.new M₁ dims starts steps vals = .ok s₁)
    (h₂ : MultilinearRegularRecursive.new M₂ dims starts steps vals = .ok s₂) :
    (∀ x, s₁.interpOne fma x = s₂.interpOne fma x) ∧
    ∀ x out, s₁.interp fma x out = s₂.interp fma x out := by
  obtain ⟨n, d, st, sp, rfl, rfl, rfl⟩ := MultilinearRegularRecursive.new_arrays h₁
  obtain ⟨_, hM₁, hn₁, hv, _, ho₁⟩ := MultilinearRegularRecursive.outcome fma h₁
  obtain ⟨_, hM₂, hn₂, _, _, ho₂⟩ := MultilinearRegularRecursive.outcome fma h₂
  have h1 : ∀ x, s₁.interpOne fma x = s₂.interpOne fma x := by
    intro x
    by_cases hl : x.length = n
    · obtain ⟨y, rfl⟩ := exists_ofFn x hl
      obtain ⟨hok₁, herr₁⟩ := ho₁ hs _ (samples_valAt zero _ _ hv.len) y
      obtain ⟨hok₂, herr₂⟩ := ho₂ hs _ (samples_valAt zero _ _ hv.len) y
      by_cases hex : ∃ k, linRegAxis false (d k) (st k) (sp k) (y k) = none
      · rw [herr₁ hex, herr₂ hex]
      · have : ∀ k, ∃ a, linRegAxis false (d k) (st k) (sp k) (y k) = some a := by
          intro k
          cases hk : linRegAxis false (d k) (st k) (sp k) (y k) with
          | none => exact absurd ⟨k, hk⟩ hex
          | some a => exact ⟨a, rfl⟩
        choose a ha using this
        rw [hok₁ a ha, hok₂ a ha]
    · rw [MultilinearRegularRecursive.interpOne_mismatch fma (by omega),
        MultilinearRegularRecursive.interpOne_mismatch fma (by omega)]
  refine ⟨h1, fun x out => ?_⟩
  rw [MultilinearRegularRecursive.interp_form, MultilinearRegularRecursive.interp_form]
  rw [hn₁, hn₂]
  exact interpBatchRec_capacity hM₁ hM₂ zero _ _ h1 x out

/-- C14, cubic regular. -/
theorem C14_multicubic_regular (fma : Bool) (hT : TotalOfUsize T) {M₁ M₂ : Nat} {dims : List Nat}
    {starts steps vals : List T} {lin : Bool} (hs : IsSlice vals)
    {s₁ : MulticubicRegularRecursive T M₁} {s₂ : MulticubicRegularRecursive T M₂}
    (h₁ : MulticubicRegularRecursive.new M₁ dims starts steps vals lin = .ok s₁)
    (h₂ : MulticubicRegularRecursive.new M₂ dims starts steps vals lin = .ok s₂) :
    (∀ x, s₁.interpOne fma x = s₂.interpOne fma x) ∧
    ∀ x out, s₁.interp fma x out = s₂.interp fma x out := by
  obtain ⟨n, d, st, sp, rfl, rfl, rfl⟩ := MulticubicRegularRecursive.new_arrays h₁
  obtain ⟨_, hM₁, hn₁, hv, _, ho₁⟩ := MulticubicRegularRecursive.outcome fma h₁
  obtain ⟨_, hM₂, hn₂, _, _, ho₂⟩ := MulticubicRegularRecursive.outcome fma h₂
  have h1 : ∀ x, s₁.interpOne fma x = s₂.interpOne fma x := by
    intro x
    by_cases hl : x.length = n
    · obtain ⟨y, rfl⟩ := exists_ofFn x hl
      rw [ho₁ hs hT _ (samples_valAt zero _ _ hv.len) y,
        ho₂ hs hT _ (samples_valAt zero _ _ hv.len) y]
    · rw [MulticubicRegularRecursive.interpOne_mismatch fma (by omega),
        MulticubicRegularRecursive.interpOne_mismatch fma (by omega)]
  refine ⟨h1, fun x out => ?_⟩
  rw [MulticubicRegularRecursive.interp_form, MulticubicRegularRecursive.interp_form]
  rw [hn₁, hn₂]
  exact interpBatchRec_capacity hM₁ hM₂ zero _ _ h1 x out

/-- C14, multilinear rectilinear. -/
theorem C14_multilinear_rectilinear (fma : Bool) {M₁ M₂ : Nat} {grids : List (List T)}
    {vals : List T} (hs : IsSlice vals)
    {s₁ : MultilinearRectilinearRecursive T M₁} {s₂ : MultilinearRectilinearRecursive T M₂}
    (h₁ : MultilinearRectilinearRecursive.new M₁ grids vals = .ok s₁)
    (h₂ : MultilinearRectilinearRecursive.new M₂ grids vals = .ok s₂) :
    (∀ x, s₁.interpOne fma x = s₂.interpOne fma x) ∧
    ∀ x out, s₁.interp fma x out = s₂.interp fma x out := by
  obtain ⟨n, gr, rfl⟩ := list_as_ofFn grids
  obtain ⟨_, hM₁, hg₁, hv, _, ho₁⟩ := MultilinearRectilinearRecursive.outcome fma h₁
  obtain ⟨_, hM₂, hg₂, _, _, ho₂⟩ := MultilinearRectilinearRecursive.outcome fma h₂
  have hl₁ : s₁.grids.length = n := by rw [hg₁, List.length_ofFn]
  have hl₂ : s₂.grids.length = n := by rw [hg₂, List.length_ofFn]
  have h1 : ∀ x, s₁.interpOne fma x = s₂.interpOne fma x := by
    intro x
    by_cases hl : x.length = n
    · obtain ⟨y, rfl⟩ := exists_ofFn x hl
      rw [ho₁ hs _ (samples_valAt zero _ _ hv.len) y, ho₂ hs _ (samples_valAt zero _ _ hv.len) y]
    · rw [MultilinearRectilinearRecursive.interpOne_mismatch fma (by omega),
        MultilinearRectilinearRecursive.interpOne_mismatch fma (by omega)]
  refine ⟨h1, fun x out => ?_⟩
  rw [MultilinearRectilinearRecursive.interp_form, MultilinearRectilinearRecursive.interp_form]
  rw [hl₁, hl₂]
  exact interpBatchRec_capacity hM₁ hM₂ zero _ _ h1 x out

/-- C14, cubic rectilinear. -/
theorem C14_multicubic_rectilinear (fma : Bool) {M₁ M₂ : Nat} {grids : List (List T)}
    {vals : List T} {lin : Bool} (hs : IsSlice vals)
    {s₁ : MulticubicRectilinearRecursive T M₁} {s₂ : MulticubicRectilinearRecursive T M₂}
    (h₁ : MulticubicRectilinearRecursive.new M₁ grids vals lin = .ok s₁)
    (h₂ : MulticubicRectilinearRecursive.new M₂ grids vals lin = .ok s₂) :
    (∀ x, s₁.interpOne fma x = s₂.interpOne fma x) ∧
    ∀ x out, s₁.interp fma x out = s₂.interp fma x out := by
  obtain ⟨n, gr, rfl⟩ := list_as_ofFn grids
  obtain ⟨_, hM₁, hg₁, hv, _, ho₁⟩ := MulticubicRectilinearRecursive.outcome fma h₁
  obtain ⟨_, hM₂, hg₂, _, _, ho₂⟩ := MulticubicRectilinearRecursive.outcome fma h₂
  have hl₁ : s₁.grids.length = n := by rw [hg₁, List.length_ofFn]
  have hl₂ : s₂.grids.length = n := by rw [hg₂, List.length_ofFn]
  have h1 : ∀ x, s₁.interpOne fma x = s₂.interpOne fma x := by
    intro x
    by_cases hl : x.length = n
    · obtain ⟨y, rfl⟩ := exists_ofFn x hl
      rw [ho₁ hs _ (samples_valAt zero _ _ hv.len) y, ho₂ hs _ (samples_valAt zero _ _ hv.len) y]
    · rw [MulticubicRectilinearRecursive.interpOne_mismatch fma (by omega),
        MulticubicRectilinearRecursive.interpOne_mismatch fma (by omega)]
  refine ⟨h1, fun x out => ?_⟩
  rw [MulticubicRectilinearRecursive.interp_form, MulticubicRectilinearRecursive.interp_form]
  rw [hl₁, hl₂]
  exact interpBatchRec_capacity hM₁ hM₂ zero _ _ h1 x out

end

/-! #### Concrete cases -/

section
attribute [local instance] ratOps

/-- Every branch of the constructor specification occurs. -/
example : (∃ s, MultilinearRegular.new (T := ℚ) (N := 2) ![2, 3] ![0, 1] ![1, 2]
    [1, 2, 3, 4, 5, 6] = .ok s) := ⟨_, rfl⟩
example : (MultilinearRegular.new (T := ℚ) (N := 2) ![2, 3] ![0, 1] ![1, 2] [1, 2] >>=
    fun _ => Res.ok ()) = .err "Dimension mismatch" := by decide +kernel
example : (MultilinearRegular.new (T := ℚ) (N := 2) ![2, 1] ![0, 1] ![1, 2] [1, 2] >>=
    fun _ => Res.ok ()) = .err "All grids must have at least two entries" := by decide +kernel
example : (MultilinearRegular.new (T := ℚ) (N := 2) ![2, 2] ![0, 1] ![1, 0] [1, 2, 3, 4] >>=
    fun _ => Res.ok ()) = .err "All grids must be monotonically increasing" := by decide +kernel
example : ¬ ProductFits [2 ^ 40, 2 ^ 40, 0] := by
  intro h; have := h 2 (by decide); revert this; decide
example : (MultilinearRegular.new (T := ℚ) (N := 3) ![2 ^ 40, 2 ^ 40, 0] ![0, 1, 2] ![1, 1, 1] []
    >>= fun _ => Res.ok ()) = .panic := by decide +kernel

/-- Only the first two entries are compared: an unsorted grid is accepted. -/
example : ∃ s, MultilinearRectilinear.new (T := ℚ) (N := 1) ![[0, 1, -5]] [1, 2, 3] = .ok s :=
  ⟨_, rfl⟩

/-- Capacity 2 is not enough for three axes; capacities 3 and 7 are. -/
example : (MultilinearRegularRecursive.new (T := ℚ) 2 [2, 2, 2] [0, 0, 0] [1, 1, 1]
    [1, 2, 3, 4, 5, 6, 7, 8] >>= fun _ => Res.ok ()) = .panic := by decide +kernel
example : (MultilinearRegularRecursive.new (T := ℚ) 3 [2, 2, 2] [0, 0, 0] [1, 1, 1]
    [1, 2, 3, 4, 5, 6, 7, 8] >>= fun s => s.interpOne true [1/2, 1/2, 1/2]) = .ok (9/2) := by
  decide +kernel
example : (MultilinearRegularRecursive.new (T := ℚ) 7 [2, 2, 2] [0, 0, 0] [1, 1, 1]
    [1, 2, 3, 4, 5, 6, 7, 8] >>= fun s => s.interpOne true [1/2, 1/2, 1/2]) = .ok (9/2) := by
  decide +kernel

end

end Interpn
