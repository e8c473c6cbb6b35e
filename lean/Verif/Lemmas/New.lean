import Verif.Lemmas.FormsNew
import Verif.Lemmas.EvalCubic
import Verif.Spec.Constructors

/-! What the constructors accept. -/

set_option autoImplicit false

namespace Interpn
open FloatOps

variable {T : Type} {N M : Nat}

/-! ### The checked product -/

theorem uprodFrom_spec (ds : List Nat) : ∀ acc,
    ((∀ k, 1 ≤ k → k ≤ ds.length → acc * (ds.take k).prod ≤ usizeMax) →
      uprodFrom acc ds = .ok (acc * ds.prod)) ∧
    ((∃ k, 1 ≤ k ∧ k ≤ ds.length ∧ usizeMax < acc * (ds.take k).prod) →
      uprodFrom acc ds = .panic) := by
  induction ds with
  | nil =>
    intro acc
    refine ⟨fun _ => by simp [uprodFrom], ?_⟩
    rintro ⟨k, h1, h2, _⟩
    simp at h2; omega
  | cons d ds ih =>
    intro acc
    constructor
    · intro h
      have h1 := h 1 le_rfl (by simp)
      simp only [List.take_succ_cons, List.take_zero, List.prod_cons, List.prod_nil, mul_one] at h1
      rw [uprodFrom, umul_ok h1, Res.ok_bind, (ih (acc * d)).1, List.prod_cons, mul_assoc]
      intro k _ hk
      have := h (k + 1) (by omega) (by simp; omega)
      rw [List.take_succ_cons, List.prod_cons, ← mul_assoc] at this
      exact this
    · rintro ⟨k, h1, h2, h3⟩
      obtain ⟨k, rfl⟩ : ∃ k', k = k' + 1 := ⟨k - 1, by omega⟩
      rw [List.take_succ_cons, List.prod_cons, ← mul_assoc] at h3
      rw [uprodFrom]
      by_cases hle : acc * d ≤ usizeMax
      · rw [umul_ok hle, Res.ok_bind]
        apply (ih (acc * d)).2
        refine ⟨k, ?_, by simpa using h2, h3⟩
        by_contra hk
        have : k = 0 := by omega
        subst this
        simp at h3; omega
      · unfold umul; rw [if_neg hle, Res.panic_bind]

theorem uprod_fits {ds : List Nat} (h : ProductFits ds) : uprod ds = .ok ds.prod := by
  have := (uprodFrom_spec ds 1).1 (fun k _ hk => by simpa [usizeMax] using h k hk)
  simpa [uprod] using this

theorem uprod_overflow {ds : List Nat} (h : ¬ ProductFits ds) : uprod ds = .panic := by
  unfold ProductFits at h
  push Not at h
  obtain ⟨k, hk, h⟩ := h
  refine (uprodFrom_spec ds 1).2 ⟨k, ?_, hk, by simpa [usizeMax] using h⟩
  by_contra hk0
  have : k = 0 := by omega
  subst this
  simp at h

theorem uprod_eq_ok_iff {ds : List Nat} {n : Nat} :
    uprod ds = .ok n ↔ ProductFits ds ∧ n = ds.prod := by
  by_cases h : ProductFits ds
  · rw [uprod_fits h]; simp [h, eq_comm]
  · rw [uprod_overflow h]; simp [h]

/-- For dimension sizes that are all positive, it is enough that the whole product fits. -/
theorem productFits_of_pos {ds : List Nat} (hpos : ∀ d ∈ ds, 0 < d) (h : ds.prod ≤ usizeMax) :
    ProductFits ds := by
  intro k _
  refine le_trans ?_ h
  conv_rhs => rw [← List.take_append_drop k ds, List.prod_append]
  apply Nat.le_mul_of_pos_right
  exact List.prod_pos fun d hd => hpos d (List.mem_of_mem_drop hd)

theorem ProductFits.prod_le {ds : List Nat} (h : ProductFits ds) : ds.prod ≤ usizeMax := by
  simpa [usizeMax] using h ds.length le_rfl

variable [FloatOps T]

/-! ### Regular grids -/

theorem checkRegular_eq_ok {m : Nat} {msg : String} {dims : List Nat} {steps vals : List T} :
    checkRegular m msg dims steps vals = .ok () ↔
      ProductFits dims ∧ vals.length = dims.prod ∧ (∀ d ∈ dims, m ≤ d) ∧
        ∀ s ∈ steps, (zero <. s) = true := by
  unfold checkRegular
  by_cases h : ProductFits dims
  · rw [uprod_fits h, Res.ok_bind]
    split_ifs with h1 h2 h3
    · simp [h1]
    · simp only [List.any_eq_true, decide_eq_true_eq] at h2
      obtain ⟨d, hd, hlt⟩ := h2
      simp only [false_iff]
      rintro ⟨_, _, h4, _⟩
      have := h4 d hd; omega
    · simp only [false_iff]
      rintro ⟨_, _, _, h4⟩
      simp only [Bool.not_eq_true', List.all_eq_false] at h3
      obtain ⟨x, hx, hn⟩ := h3
      exact hn (h4 x hx)
    · simp only [true_iff]
      refine ⟨h, not_not.1 h1, ?_, ?_⟩
      · intro d hd
        by_contra hlt
        exact h2 (by simp only [List.any_eq_true, decide_eq_true_eq]; exact ⟨d, hd, by omega⟩)
      · simpa using h3
  · rw [uprod_overflow h]; simp [h]

omit [FloatOps T] in
theorem goodVals_of {m : Nat} {dims : Fin N → Nat} {vals : List T}
    (h1 : ProductFits (List.ofFn dims)) (h2 : vals.length = (List.ofFn dims).prod)
    (h3 : ∀ d ∈ List.ofFn dims, m ≤ d) : GoodVals m dims vals where
  len := by rw [h2, List.prod_ofFn]
  min := fun k => h3 _ (by simp)
  max := h2 ▸ h1.prod_le

theorem MultilinearRegular.new_ok {dims : Fin N → Nat} {starts steps : Fin N → T} {vals : List T}
    {s : MultilinearRegular T N} (h : MultilinearRegular.new dims starts steps vals = .ok s) :
    s = { dims, starts, steps, vals } ∧ GoodVals 2 dims vals ∧
      ∀ k, (zero <. steps k) = true := by
  rw [MultilinearRegular.new_form] at h
  rw [Res.bind_eq_ok] at h
  obtain ⟨_, h1, h2⟩ := h
  obtain ⟨ha, hb, hc, hd⟩ := checkRegular_eq_ok.1 h1
  cases h2
  exact ⟨rfl, goodVals_of ha hb hc, fun k => hd _ (by simp)⟩

theorem NearestRegular.new_ok {dims : Fin N → Nat} {starts steps : Fin N → T} {vals : List T}
    {s : NearestRegular T N} (h : NearestRegular.new dims starts steps vals = .ok s) :
    s = { dims, starts, steps, vals } ∧ GoodVals 2 dims vals ∧
      ∀ k, (zero <. steps k) = true := by
  rw [NearestRegular.new_form] at h
  rw [Res.bind_eq_ok] at h
  obtain ⟨_, h1, h2⟩ := h
  obtain ⟨ha, hb, hc, hd⟩ := checkRegular_eq_ok.1 h1
  cases h2
  exact ⟨rfl, goodVals_of ha hb hc, fun k => hd _ (by simp)⟩

theorem MulticubicRegular.new_ok {dims : Fin N → Nat} {starts steps : Fin N → T} {vals : List T}
    {lin : Bool} {s : MulticubicRegular T N}
    (h : MulticubicRegular.new dims starts steps vals lin = .ok s) :
    s = { dims, starts, steps, vals, lin } ∧ GoodVals 4 dims vals ∧
      ∀ k, (zero <. steps k) = true := by
  rw [MulticubicRegular.new_form] at h
  rw [Res.bind_eq_ok] at h
  obtain ⟨_, h1, h2⟩ := h
  obtain ⟨ha, hb, hc, hd⟩ := checkRegular_eq_ok.1 h1
  cases h2
  exact ⟨rfl, goodVals_of ha hb hc, fun k => hd _ (by simp)⟩

theorem checkRegularRec_eq {m : Nat} {msg : String} {dims : List Nat} {starts steps vals : List T}
    (h1 : starts.length = dims.length) (h2 : steps.length = dims.length)
    (h0 : 0 < dims.length) :
    checkRegularRec m msg dims starts steps vals = checkRegular m msg dims steps vals := by
  unfold checkRegularRec checkRegular
  simp only
  congr 1; funext n
  simp [h1, h2, h0]

/-- Reading back a padded array. -/
theorem padTo_ok {α : Type} (pad : α) (s : List α) (h : s.length ≤ M) :
    padTo M pad s = .ok (fun i => s.getD i.val pad) := by simp [padTo, h]

omit [FloatOps T] in
theorem getD_ofFn (f : Fin N → T) (d : T) (k : Fin N) : (List.ofFn f).getD k.val d = f k := by
  rw [List.getD_eq_getElem _ _ (by simp)]; simp

theorem MultilinearRegularRecursive.new_ok {dims : List Nat} {starts steps vals : List T}
    {s : MultilinearRegularRecursive T M}
    (h : MultilinearRegularRecursive.new M dims starts steps vals = .ok s) :
    (0 < dims.length ∧ starts.length = dims.length ∧ steps.length = dims.length ∧
      dims.length ≤ M) ∧
    checkRegular 2 "All grids must have at least two entries" dims steps vals = .ok () ∧
    s = { ndims := dims.length, dims := fun i => dims.getD i.val 0,
          starts := fun i => starts.getD i.val zero, steps := fun i => steps.getD i.val zero,
          vals := vals } := by
  rw [MultilinearRegularRecursive.new_form] at h
  rw [Res.bind_eq_ok] at h
  obtain ⟨_, h1, h2⟩ := h
  have hc := h1
  unfold checkRegularRec at h1
  rw [Res.bind_eq_ok] at h1
  obtain ⟨n, _, h1⟩ := h1
  split at h1
  · cases h1
  · next hb =>
    simp only [Bool.not_eq_true', Bool.not_eq_false, Bool.and_eq_true, decide_eq_true_eq] at hb
    obtain ⟨⟨⟨ha, hb⟩, _⟩, h0⟩ := hb
    have hM : dims.length ≤ M := by
      by_contra hM
      have : padTo M zero steps = Res.panic := by unfold padTo; rw [if_neg (by omega)]
      rw [this] at h2; cases h2
    rw [padTo_ok _ _ (by omega), Res.ok_bind, padTo_ok _ _ (by omega), Res.ok_bind,
      padTo_ok _ _ hM, Res.ok_bind] at h2
    rw [checkRegularRec_eq ha hb h0] at hc
    exact ⟨⟨h0, ha, hb, hM⟩, hc, (Res.ok.inj h2).symm⟩

theorem MulticubicRegularRecursive.new_ok {dims : List Nat} {starts steps vals : List T}
    {lin : Bool} {s : MulticubicRegularRecursive T M}
    (h : MulticubicRegularRecursive.new M dims starts steps vals lin = .ok s) :
    (0 < dims.length ∧ starts.length = dims.length ∧ steps.length = dims.length ∧
      dims.length ≤ M) ∧
    checkRegular 4 "All grids must have at least four entries" dims steps vals = .ok () ∧
    s = { ndims := dims.length, dims := fun i => dims.getD i.val 0,
          starts := fun i => starts.getD i.val zero, steps := fun i => steps.getD i.val zero,
          vals := vals, lin := lin } := by
  rw [MulticubicRegularRecursive.new_form] at h
  rw [Res.bind_eq_ok] at h
  obtain ⟨_, h1, h2⟩ := h
  have hc := h1
  unfold checkRegularRec at h1
  rw [Res.bind_eq_ok] at h1
  obtain ⟨n, _, h1⟩ := h1
  split at h1
  · cases h1
  · next hb =>
    simp only [Bool.not_eq_true', Bool.not_eq_false, Bool.and_eq_true, decide_eq_true_eq] at hb
    obtain ⟨⟨⟨ha, hb⟩, _⟩, h0⟩ := hb
    have hM : dims.length ≤ M := by
      by_contra hM
      have : padTo M zero steps = Res.panic := by unfold padTo; rw [if_neg (by omega)]
      rw [this] at h2; cases h2
    rw [padTo_ok _ _ (by omega), Res.ok_bind, padTo_ok _ _ (by omega), Res.ok_bind,
      padTo_ok _ _ hM, Res.ok_bind] at h2
    rw [checkRegularRec_eq ha hb h0] at hc
    exact ⟨⟨h0, ha, hb, hM⟩, hc, (Res.ok.inj h2).symm⟩

/-- On arrays of matching length within capacity, the recursive constructor succeeds or fails
like the flattened one. -/
theorem MultilinearRegularRecursive.new_ofFn (hN : 0 < N) (hM : N ≤ M) (dims : Fin N → Nat)
    (starts steps : Fin N → T) (vals : List T) :
    MultilinearRegularRecursive.new M (List.ofFn dims) (List.ofFn starts) (List.ofFn steps) vals =
      (checkRegular 2 "All grids must have at least two entries" (List.ofFn dims)
        (List.ofFn steps) vals >>= fun _ => .ok
        { ndims := (List.ofFn dims).length, dims := fun i => (List.ofFn dims).getD i.val 0,
          starts := fun i => (List.ofFn starts).getD i.val zero,
          steps := fun i => (List.ofFn steps).getD i.val zero, vals := vals }) := by
  rw [MultilinearRegularRecursive.new_form]
  rw [checkRegularRec_eq (by simp) (by simp) (by simpa using hN), padTo_ok _ _ (by simpa using hM),
    padTo_ok _ _ (by simpa using hM), padTo_ok _ _ (by simpa using hM)]
  rfl

theorem MulticubicRegularRecursive.new_ofFn (hN : 0 < N) (hM : N ≤ M) (dims : Fin N → Nat)
    (starts steps : Fin N → T) (vals : List T) (lin : Bool) :
    MulticubicRegularRecursive.new M (List.ofFn dims) (List.ofFn starts) (List.ofFn steps) vals lin =
      (checkRegular 4 "All grids must have at least four entries" (List.ofFn dims)
        (List.ofFn steps) vals >>= fun _ => .ok
        { ndims := (List.ofFn dims).length, dims := fun i => (List.ofFn dims).getD i.val 0,
          starts := fun i => (List.ofFn starts).getD i.val zero,
          steps := fun i => (List.ofFn steps).getD i.val zero, vals := vals, lin := lin }) := by
  rw [MulticubicRegularRecursive.new_form]
  rw [checkRegularRec_eq (by simp) (by simp) (by simpa using hN), padTo_ok _ _ (by simpa using hM),
    padTo_ok _ _ (by simpa using hM), padTo_ok _ _ (by simpa using hM)]
  rfl

/-! ### Rectilinear grids -/

/-- The only monotonicity check of the rectilinear constructors. -/
def firstPairOk (g : List T) : Prop := ∃ a b, g[0]? = some a ∧ g[1]? = some b ∧ (a <. b) = true

theorem firstPairIncreasing_eq {g : List T} (h : 2 ≤ g.length) :
    firstPairIncreasing g = .ok (g[0] <. g[1]) := by
  unfold firstPairIncreasing
  rw [lget_lt _ (by omega), Res.ok_bind, lget_lt _ (by omega), Res.ok_bind, Res.pure_eq]

theorem firstPairOk_iff {g : List T} (h : 2 ≤ g.length) :
    firstPairOk g ↔ (g[0] <. g[1]) = true := by
  unfold firstPairOk
  rw [List.getElem?_eq_getElem (by omega : 0 < g.length),
    List.getElem?_eq_getElem (by omega : 1 < g.length)]
  simp

theorem allFirstPairs_eq (gs : List (List T)) (h : ∀ g ∈ gs, 2 ≤ g.length) :
    ∃ b, allFirstPairs gs = .ok b ∧ (b = true ↔ ∀ g ∈ gs, firstPairOk g) := by
  induction gs with
  | nil => exact ⟨true, rfl, by simp⟩
  | cons g gs ih =>
    obtain ⟨b, hb, hiff⟩ := ih fun g' hg' => h g' (by simp [hg'])
    have hg := h g (by simp)
    rw [allFirstPairs, firstPairIncreasing_eq hg, Res.ok_bind]
    by_cases hp : (g[0] <. g[1]) = true
    · rw [if_pos hp, hb]
      refine ⟨b, rfl, ?_⟩
      rw [hiff]
      simp [firstPairOk_iff hg, hp]
    · rw [if_neg hp]
      refine ⟨false, rfl, ?_⟩
      simp [firstPairOk_iff hg, hp]

theorem checkRectilinear_eq_ok {m : Nat} (hm : 2 ≤ m) {msg : String} {grids : List (List T)}
    {vals : List T} :
    checkRectilinear m msg grids vals = .ok () ↔
      ProductFits (grids.map List.length) ∧ vals.length = (grids.map List.length).prod ∧
        (∀ g ∈ grids, m ≤ g.length) ∧ ∀ g ∈ grids, firstPairOk g := by
  unfold checkRectilinear
  simp only
  by_cases h : ProductFits (grids.map List.length)
  · rw [uprod_fits h, Res.ok_bind]
    split_ifs with h1 h2
    · simp [h1]
    · simp only [List.any_eq_true, decide_eq_true_eq, List.mem_map] at h2
      obtain ⟨d, ⟨g, hg, rfl⟩, hlt⟩ := h2
      simp only [false_iff]
      rintro ⟨_, _, h4, _⟩
      have := h4 g hg; omega
    · have hmin : ∀ g ∈ grids, m ≤ g.length := by
        intro g hg
        by_contra hlt
        apply h2
        simp only [List.any_eq_true, decide_eq_true_eq, List.mem_map]
        exact ⟨_, ⟨g, hg, rfl⟩, by omega⟩
      obtain ⟨b, hb, hiff⟩ := allFirstPairs_eq grids fun g hg => le_trans hm (hmin g hg)
      rw [hb, Res.ok_bind]
      have h1' : vals.length = (grids.map List.length).prod := not_not.1 h1
      cases b
      · simp only [Bool.not_false, if_true, reduceCtorEq, false_iff]
        rintro ⟨_, _, _, h4⟩
        exact absurd (hiff.2 h4) (by simp)
      · simp only [Bool.not_true, Bool.false_eq_true, if_false, true_iff]
        exact ⟨h, h1', hmin, hiff.1 rfl⟩
  · rw [uprod_overflow h]; simp [h]

theorem map_length_ofFn {α : Type} (grids : Fin N → List α) :
    (List.ofFn grids).map List.length = List.ofFn fun k => (grids k).length := by
  rw [List.map_ofFn]; rfl

omit [FloatOps T] in
theorem goodVals_grids {m : Nat} {grids : Fin N → List T} {vals : List T}
    (h1 : ProductFits ((List.ofFn grids).map List.length))
    (h2 : vals.length = ((List.ofFn grids).map List.length).prod)
    (h3 : ∀ g ∈ List.ofFn grids, m ≤ g.length) :
    GoodVals m (fun k => (grids k).length) vals := by
  rw [map_length_ofFn] at h1 h2
  refine goodVals_of h1 h2 ?_
  intro d hd
  rw [List.mem_ofFn] at hd
  obtain ⟨k, rfl⟩ := hd
  exact h3 _ (by simp)

theorem MultilinearRectilinear.new_ok {grids : Fin N → List T} {vals : List T}
    {s : MultilinearRectilinear T N} (h : MultilinearRectilinear.new grids vals = .ok s) :
    s = { grids, dims := fun k => (grids k).length, vals } ∧
      GoodVals 2 (fun k => (grids k).length) vals ∧ ∀ k, firstPairOk (grids k) := by
  rw [MultilinearRectilinear.new_form] at h
  rw [Res.bind_eq_ok] at h
  obtain ⟨_, h1, h2⟩ := h
  obtain ⟨ha, hb, hc, hd⟩ := (checkRectilinear_eq_ok le_rfl).1 h1
  cases h2
  exact ⟨rfl, goodVals_grids ha hb hc, fun k => hd _ (by simp)⟩

theorem NearestRectilinear.new_ok {grids : Fin N → List T} {vals : List T}
    {s : NearestRectilinear T N} (h : NearestRectilinear.new grids vals = .ok s) :
    s = { grids, dims := fun k => (grids k).length, vals } ∧
      GoodVals 2 (fun k => (grids k).length) vals ∧ ∀ k, firstPairOk (grids k) := by
  rw [NearestRectilinear.new_form] at h
  rw [Res.bind_eq_ok] at h
  obtain ⟨_, h1, h2⟩ := h
  obtain ⟨ha, hb, hc, hd⟩ := (checkRectilinear_eq_ok le_rfl).1 h1
  cases h2
  exact ⟨rfl, goodVals_grids ha hb hc, fun k => hd _ (by simp)⟩

theorem MulticubicRectilinear.new_ok {grids : Fin N → List T} {vals : List T} {lin : Bool}
    {s : MulticubicRectilinear T N} (h : MulticubicRectilinear.new grids vals lin = .ok s) :
    s = { grids, dims := fun k => (grids k).length, vals, lin } ∧
      GoodVals 4 (fun k => (grids k).length) vals ∧ ∀ k, firstPairOk (grids k) := by
  rw [MulticubicRectilinear.new_form] at h
  rw [Res.bind_eq_ok] at h
  obtain ⟨_, h1, h2⟩ := h
  obtain ⟨ha, hb, hc, hd⟩ := (checkRectilinear_eq_ok (by omega)).1 h1
  cases h2
  exact ⟨rfl, goodVals_grids ha hb hc, fun k => hd _ (by simp)⟩

theorem checkRectilinearRec_eq {m : Nat} {msg : String} {grids : List (List T)} {vals : List T}
    (h0 : 0 < grids.length) (hM : grids.length ≤ M) :
    checkRectilinearRec M m msg grids vals =
      (checkRectilinear m msg grids vals >>= fun _ =>
        .ok fun i => (grids.map List.length).getD i.val 1) := by
  unfold checkRectilinearRec checkRectilinear
  rw [padTo_ok _ _ (by simpa using hM), Res.ok_bind]
  simp only [h0, hM]
  cases uprod (grids.map List.length) with
  | ok n =>
    simp only [Res.ok_bind, decide_true, Bool.and_true, Bool.not_eq_true', decide_eq_false_iff_not]
    by_cases h1 : vals.length = n
    · rw [if_neg (not_not.2 h1), if_neg (not_not.2 h1)]
      split_ifs
      · rfl
      · cases allFirstPairs grids with
        | ok b => cases b <;> rfl
        | err e => rfl
        | panic => rfl
    · rw [if_pos h1, if_pos h1]; rfl
  | err e => rfl
  | panic => rfl

theorem checkRectilinearRec_ok {m : Nat} {msg : String} {grids : List (List T)} {vals : List T}
    {dims : Fin M → Nat} (h : checkRectilinearRec M m msg grids vals = .ok dims) :
    0 < grids.length ∧ grids.length ≤ M := by
  unfold checkRectilinearRec at h
  rw [Res.bind_eq_ok] at h
  obtain ⟨_, _, h⟩ := h
  rw [Res.bind_eq_ok] at h
  obtain ⟨n, _, h⟩ := h
  split at h
  · cases h
  · next hb =>
    simp only [Bool.not_eq_true', Bool.not_eq_false, Bool.and_eq_true, decide_eq_true_eq] at hb
    exact ⟨hb.1.2, hb.2⟩

theorem MultilinearRectilinearRecursive.new_eq {grids : List (List T)} {vals : List T}
    (h0 : 0 < grids.length) (hM : grids.length ≤ M) :
    MultilinearRectilinearRecursive.new M grids vals =
      (checkRectilinear 2 "All grids must have at least 2 entries" grids vals >>= fun _ =>
        .ok { grids, dims := fun i => (grids.map List.length).getD i.val 1, vals }) := by
  rw [MultilinearRectilinearRecursive.new_form]
  rw [checkRectilinearRec_eq h0 hM, bind_assoc]
  rfl

theorem MulticubicRectilinearRecursive.new_eq {grids : List (List T)} {vals : List T} {lin : Bool}
    (h0 : 0 < grids.length) (hM : grids.length ≤ M) :
    MulticubicRectilinearRecursive.new M grids vals lin =
      (checkRectilinear 4 "All grids must have at least 4 entries" grids vals >>= fun _ =>
        .ok { grids, dims := fun i => (grids.map List.length).getD i.val 1, vals, lin }) := by
  rw [MulticubicRectilinearRecursive.new_form]
  rw [checkRectilinearRec_eq h0 hM, bind_assoc]
  rfl

/-! ### `get_loc` of accepted rectilinear grids -/

theorem MultilinearRectilinear.getLoc_of_new {grids : Fin N → List T} {vals : List T}
    {s : MultilinearRectilinear T N} (h : MultilinearRectilinear.new grids vals = .ok s) (k : Fin N)
    (v : T) : 2 ≤ (grids k).length ∧
      s.getLoc v k = linGetLocRectilinear (grids k).length (grids k) v := by
  obtain ⟨rfl, hg, _⟩ := new_ok h
  exact ⟨hg.min k, getLoc_form _ v k.2⟩

theorem NearestRectilinear.getLoc_of_new {grids : Fin N → List T} {vals : List T}
    {s : NearestRectilinear T N} (h : NearestRectilinear.new grids vals = .ok s) (k : Fin N)
    (v : T) : 2 ≤ (grids k).length ∧
      s.getLoc v k = linGetLocRectilinear (grids k).length (grids k) v := by
  obtain ⟨rfl, hg, _⟩ := new_ok h
  exact ⟨hg.min k, getLoc_form _ v k.2⟩

theorem MulticubicRectilinear.getLoc_of_new {grids : Fin N → List T} {vals : List T} {lin : Bool}
    {s : MulticubicRectilinear T N} (h : MulticubicRectilinear.new grids vals lin = .ok s) (k : Fin N)
    (v : T) : 4 ≤ (grids k).length ∧
      s.getLoc v k = cubGetLocRectilinear (grids k).length (grids k) v := by
  obtain ⟨rfl, hg, _⟩ := new_ok h
  exact ⟨hg.min k, getLoc_form _ v k.2⟩

theorem MultilinearRectilinearRecursive.getLoc_of_new {grids : List (List T)}
    {vals : List T} {s : MultilinearRectilinearRecursive T M}
    (h : MultilinearRectilinearRecursive.new M grids vals = .ok s) {k : Nat}
    (hk : k < grids.length) (v : T) : 2 ≤ grids[k].length ∧
      s.getLoc v k = linGetLocRectilinear grids[k].length grids[k] v := by
  have h' := h
  rw [new_form, Res.bind_eq_ok] at h'
  obtain ⟨d, h1, _⟩ := h'
  obtain ⟨h0, hM⟩ := checkRectilinearRec_ok h1
  rw [new_eq h0 hM, Res.bind_eq_ok] at h
  obtain ⟨_, hc, hs⟩ := h
  obtain ⟨_, _, hmin, _⟩ := (checkRectilinear_eq_ok (by omega)).1 hc
  cases hs
  refine ⟨hmin _ (List.getElem_mem hk), ?_⟩
  rw [getLoc_form _ v (show k < M by omega) hk]
  simp [hk]

theorem MulticubicRectilinearRecursive.getLoc_of_new {grids : List (List T)}
    {vals : List T} {lin : Bool} {s : MulticubicRectilinearRecursive T M}
    (h : MulticubicRectilinearRecursive.new M grids vals lin = .ok s) {k : Nat}
    (hk : k < grids.length) (v : T) : 4 ≤ grids[k].length ∧
      s.getLoc v k = cubGetLocRectilinear grids[k].length grids[k] v := by
  have h' := h
  rw [new_form, Res.bind_eq_ok] at h'
  obtain ⟨d, h1, _⟩ := h'
  obtain ⟨h0, hM⟩ := checkRectilinearRec_ok h1
  rw [new_eq h0 hM, Res.bind_eq_ok] at h
  obtain ⟨_, hc, hs⟩ := h
  obtain ⟨_, _, hmin, _⟩ := (checkRectilinear_eq_ok (by omega)).1 hc
  cases hs
  refine ⟨hmin _ (List.getElem_mem hk), ?_⟩
  rw [getLoc_form _ v (show k < M by omega) hk]
  simp [hk]

end Interpn
