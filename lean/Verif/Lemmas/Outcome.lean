import Verif.Lemmas.New

/-! Outcomes of evaluation by the recursive interpolators, from a successful constructor. -/

set_option autoImplicit false

namespace Interpn
open FloatOps

variable {T : Type} {N M : Nat}

theorem exists_ofFn {α : Type} {n : Nat} (l : List α) (h : l.length = n) :
    ∃ f : Fin n → α, l = List.ofFn f := by
  subst h
  exact ⟨fun k => l[k.val], by simp⟩

theorem list_as_ofFn {α : Type} (l : List α) : ∃ n, ∃ f : Fin n → α, l = List.ofFn f :=
  ⟨_, exists_ofFn l rfl⟩

/-- Samples of grid data exist whatever the values are. -/
theorem exists_samples [Inhabited T] {dims : Fin N → Nat} {vals : List T}
    (hlen : vals.length = ∏ k, dims k) : ∃ g, Samples dims vals g :=
  ⟨_, samples_valAt default dims vals hlen⟩

variable [FloatOps T]

theorem MultilinearRegularRecursive.outcome (fma : Bool) {dims : Fin N → Nat}
    {starts steps : Fin N → T} {vals : List T} {s : MultilinearRegularRecursive T M}
    (h : MultilinearRegularRecursive.new M (List.ofFn dims) (List.ofFn starts) (List.ofFn steps)
      vals = .ok s) :
    0 < N ∧ N ≤ M ∧ s.ndims = N ∧ GoodVals 2 dims vals ∧ (∀ k, (zero <. steps k) = true) ∧
    (IsSlice vals → ∀ (g : (Fin N → Nat) → T), Samples dims vals g → ∀ x : Fin N → T,
      (∀ a : Fin N → Nat × T,
        (∀ k, linRegAxis false (dims k) (starts k) (steps k) (x k) = some (a k)) →
        s.interpOne fma (List.ofFn x) =
        .ok (axisByAxis (fun k f => lerp fma (a k).2 fun p => f ((a k).1 + p.val)) g)) ∧
      ((∃ k, linRegAxis false (dims k) (starts k) (steps k) (x k) = none) →
        s.interpOne fma (List.ofFn x) = .err errRepr)) := by
  obtain ⟨⟨hN, _, _, hM⟩, hc, hseq⟩ := new_ok h
  simp only [List.length_ofFn] at hN hM
  obtain ⟨h1, h2, h3, h4⟩ := checkRegular_eq_ok.1 hc
  have hv : GoodVals 2 dims vals := goodVals_of h1 h2 h3
  refine ⟨hN, hM, by rw [hseq]; simp, hv, fun k => h4 _ (by simp), fun hs g hg x => ?_⟩
  subst hseq
  exact interpOne_cases (x := x) (dims := dims) (starts := starts) (steps := steps)
      fma hN (by simp) hM (fun k => getD_ofFn _ _ k) (fun k => getD_ofFn _ _ k)
      (fun k => getD_ofFn _ _ k) hv hs hg

theorem MultilinearRectilinearRecursive.outcome (fma : Bool) {grids : Fin N → List T}
    {vals : List T} {s : MultilinearRectilinearRecursive T M}
    (h : MultilinearRectilinearRecursive.new M (List.ofFn grids) vals = .ok s) :
    0 < N ∧ N ≤ M ∧ s.grids = List.ofFn grids ∧ GoodVals 2 (fun k => (grids k).length) vals ∧
    (∀ k, firstPairOk (grids k)) ∧
    (IsSlice vals → ∀ (g : (Fin N → Nat) → T), Samples (fun k => (grids k).length) vals g →
      ∀ x : Fin N → T, s.interpOne fma (List.ofFn x) =
      .ok (axisByAxis (fun k => linRule fma (grids k) (x k)) g)) := by
  have hsz : 0 < (List.ofFn grids).length ∧ (List.ofFn grids).length ≤ M := by
    rw [new_form] at h
    rw [Res.bind_eq_ok] at h
    obtain ⟨d, hd, _⟩ := h
    exact checkRectilinearRec_ok hd
  rw [new_eq hsz.1 hsz.2, Res.bind_eq_ok] at h
  obtain ⟨_, hc, hseq⟩ := h
  simp only [List.length_ofFn] at hsz
  obtain ⟨h1, h2, h3, h4⟩ := (checkRectilinear_eq_ok le_rfl).1 hc
  have hv : GoodVals 2 (fun k => (grids k).length) vals := goodVals_grids h1 h2 h3
  have hseq := Res.ok.inj hseq
  subst hseq
  refine ⟨hsz.1, hsz.2, rfl, hv, fun k => h4 _ (by simp), fun hs g hg x => ?_⟩
  exact interpOne_ok (grids := grids) fma (by simp) hsz.2
      (fun k => by simp) (fun k => by simp) hv hs hg

theorem MulticubicRegularRecursive.outcome (fma : Bool) {dims : Fin N → Nat}
    {starts steps : Fin N → T} {vals : List T} {lin : Bool} {s : MulticubicRegularRecursive T M}
    (h : MulticubicRegularRecursive.new M (List.ofFn dims) (List.ofFn starts) (List.ofFn steps)
      vals lin = .ok s) :
    0 < N ∧ N ≤ M ∧ s.ndims = N ∧ GoodVals 4 dims vals ∧ (∀ k, (zero <. steps k) = true) ∧
    (IsSlice vals → TotalOfUsize T →
      ∀ (g : (Fin N → Nat) → T), Samples dims vals g → ∀ x : Fin N → T,
      s.interpOne fma (List.ofFn x) =
      (axisLoop N (0, .none, zero) (fun i => do
        cubRegAxis (← aget dims i) (← aget starts i) (← aget steps i) (← aget x i)) >>=
      fun a => .ok (axisByAxis (fun k => cubRegRule fma false lin (a k)) g))) := by
  obtain ⟨⟨hN, _, _, hM⟩, hc, hseq⟩ := new_ok h
  simp only [List.length_ofFn] at hN hM
  obtain ⟨h1, h2, h3, h4⟩ := checkRegular_eq_ok.1 hc
  have hv : GoodVals 4 dims vals := goodVals_of h1 h2 h3
  refine ⟨hN, hM, by rw [hseq]; simp, hv, fun k => h4 _ (by simp), fun hs hT g hg x => ?_⟩
  subst hseq
  exact interpOne_eq (x := x) (dims := dims) (starts := starts) (steps := steps)
      fma hT (by simp) hM (fun k => getD_ofFn _ _ k) (fun k => getD_ofFn _ _ k)
      (fun k => getD_ofFn _ _ k) hv hs hg

theorem MulticubicRectilinearRecursive.outcome (fma : Bool) {grids : Fin N → List T}
    {vals : List T} {lin : Bool} {s : MulticubicRectilinearRecursive T M}
    (h : MulticubicRectilinearRecursive.new M (List.ofFn grids) vals lin = .ok s) :
    0 < N ∧ N ≤ M ∧ s.grids = List.ofFn grids ∧ GoodVals 4 (fun k => (grids k).length) vals ∧
    (∀ k, firstPairOk (grids k)) ∧
    (IsSlice vals → ∀ (g : (Fin N → Nat) → T), Samples (fun k => (grids k).length) vals g →
      ∀ x : Fin N → T, s.interpOne fma (List.ofFn x) =
      .ok (axisByAxis (fun k => cubRectRule fma fma fma lin (grids k) (x k)) g)) := by
  have hsz : 0 < (List.ofFn grids).length ∧ (List.ofFn grids).length ≤ M := by
    rw [new_form] at h
    rw [Res.bind_eq_ok] at h
    obtain ⟨d, hd, _⟩ := h
    exact checkRectilinearRec_ok hd
  rw [new_eq hsz.1 hsz.2, Res.bind_eq_ok] at h
  obtain ⟨_, hc, hseq⟩ := h
  simp only [List.length_ofFn] at hsz
  obtain ⟨h1, h2, h3, h4⟩ := (checkRectilinear_eq_ok (by omega)).1 hc
  have hv : GoodVals 4 (fun k => (grids k).length) vals := goodVals_grids h1 h2 h3
  have hseq := Res.ok.inj hseq
  subst hseq
  refine ⟨hsz.1, hsz.2, rfl, hv, fun k => h4 _ (by simp), fun hs g hg x => ?_⟩
  exact interpOne_ok (grids := grids) fma (by simp) hsz.2
      (fun k => by simp) (fun k => by simp) hv hs hg

/-- Wrong number of coordinates. -/
theorem MultilinearRegularRecursive.interpOne_mismatch (fma : Bool)
    {s : MultilinearRegularRecursive T M} {x : List T} (h : x.length ≠ s.ndims) :
    s.interpOne fma x = .err "Dimension mismatch" := by
  rw [interpOne_form]; rw [dif_neg (by tauto)]

theorem MultilinearRectilinearRecursive.interpOne_mismatch (fma : Bool)
    {s : MultilinearRectilinearRecursive T M} {x : List T} (h : x.length ≠ s.grids.length) :
    s.interpOne fma x = .err "Dimension mismatch" := by
  rw [interpOne_form]; rw [dif_neg (by tauto)]

theorem MulticubicRegularRecursive.interpOne_mismatch (fma : Bool)
    {s : MulticubicRegularRecursive T M} {x : List T} (h : x.length ≠ s.ndims) :
    s.interpOne fma x = .err "Dimension mismatch" := by
  rw [interpOne_form]; rw [dif_neg (by tauto)]

theorem MulticubicRectilinearRecursive.interpOne_mismatch (fma : Bool)
    {s : MulticubicRectilinearRecursive T M} {x : List T} (h : x.length ≠ s.grids.length) :
    s.interpOne fma x = .err "Dimension mismatch" := by
  rw [interpOne_form]; rw [dif_neg (by tauto)]

/-- The lists passed to a successful recursive regular constructor, as arrays. -/
theorem MultilinearRegularRecursive.new_arrays {dims : List Nat} {starts steps vals : List T}
    {s : MultilinearRegularRecursive T M}
    (h : MultilinearRegularRecursive.new M dims starts steps vals = .ok s) :
    ∃ n, ∃ (d : Fin n → Nat) (st sp : Fin n → T), dims = List.ofFn d ∧ starts = List.ofFn st ∧
      steps = List.ofFn sp := by
  obtain ⟨⟨_, h1, h2, _⟩, _⟩ := new_ok h
  obtain ⟨d, hd⟩ := exists_ofFn dims rfl
  obtain ⟨st, hst⟩ := exists_ofFn starts h1
  obtain ⟨sp, hsp⟩ := exists_ofFn steps h2
  exact ⟨_, d, st, sp, hd, hst, hsp⟩

theorem MulticubicRegularRecursive.new_arrays {dims : List Nat} {starts steps vals : List T}
    {lin : Bool} {s : MulticubicRegularRecursive T M}
    (h : MulticubicRegularRecursive.new M dims starts steps vals lin = .ok s) :
    ∃ n, ∃ (d : Fin n → Nat) (st sp : Fin n → T), dims = List.ofFn d ∧ starts = List.ofFn st ∧
      steps = List.ofFn sp := by
  obtain ⟨⟨_, h1, h2, _⟩, _⟩ := new_ok h
  obtain ⟨d, hd⟩ := exists_ofFn dims rfl
  obtain ⟨st, hst⟩ := exists_ofFn starts h1
  obtain ⟨sp, hsp⟩ := exists_ofFn steps h2
  exact ⟨_, d, st, sp, hd, hst, hsp⟩

end Interpn
