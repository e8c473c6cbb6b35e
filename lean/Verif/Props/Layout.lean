import Verif.Lemmas.New
import Verif.Lemmas.FormsRec
import Mathlib.Algebra.BigOperators.Fin
import Verif.Lemmas.RatOps

/-! C46: the strides computed by the code address the value array in C order. -/

set_option autoImplicit false

namespace Interpn

variable {T α : Type} {N : Nat}

/-- C order spelled out for up to three axes: the last axis runs fastest. -/
theorem C46_formula (d0 d1 d2 i j k : Nat) :
    cIndex ![d0] ![i] = i ∧ cIndex ![d0, d1] ![i, j] = i * d1 + j ∧
    cIndex ![d0, d1, d2] ![i, j, k] = (i * d1 + j) * d2 + k := by
  refine ⟨by simp [cIndex], by simp [cIndex, Fin.last], by simp [cIndex, Fin.last]⟩

/-- What C46 asks of an array of strides: with them, reading routine `index` returns, for every
node `loc` of a grid with dimensions `dims`, the entry of `vals` at the C-order position of `loc`
(and in particular neither overflows nor leaves the array). -/
def AddressesCOrder (index : (Fin N → Nat) → (Fin N → Nat) → List T → Res T) (dims : Fin N → Nat)
    (vals : List T) (dimprod : Fin N → Nat) : Prop :=
  ∀ loc : Fin N → Nat, (∀ k, loc k < dims k) →
    ∃ v, vals[cIndex dims loc]? = some v ∧ index loc dimprod vals = .ok v

theorem addresses_strides {m : Nat} {dims : Fin N → Nat} {vals : List T}
    (hg : GoodVals m dims vals) : AddressesCOrder indexArr dims vals (strides dims) := by
  intro loc hloc
  have hlt := cIndex_lt dims loc hloc
  have := hg.len
  refine ⟨vals[cIndex dims loc], by simp, ?_⟩
  rw [indexArr_eq dims loc vals hloc hg.len hg.max, lget_lt _ (by omega)]

theorem flatSetup_strides {m : Nat} (hm : 0 < m) {dims : Fin N → Nat} {vals : List T}
    (hg : GoodVals m dims vals) {init : α} {axis : Nat → Res α} {d : Fin N → Nat}
    (h : (flatSetup dims init axis >>= fun st => Res.ok st.1) = .ok d) : d = strides dims := by
  rw [flatSetup_eq dims init axis (hg.pos hm) (by have := hg.len; have := hg.max; omega)] at h
  cases hx : axisLoop N init axis with
  | ok a => rw [hx] at h; cases h; rfl
  | err e => rw [hx] at h; cases h
  | panic => rw [hx] at h; cases h

theorem goodVals_list {m : Nat} {dims : List Nat} {vals : List T} (hp : ProductFits dims)
    (hl : vals.length = dims.prod) (hmin : ∀ d ∈ dims, m ≤ d) :
    GoodVals m (fun k : Fin dims.length => dims.getD k 0) vals := by
  have e : (fun k : Fin dims.length => dims.getD k 0) = fun k => dims[k] := by
    funext k; simp
  rw [e]
  exact goodVals_of (by simpa using hp) (by simpa using hl) (by simpa using hmin)

variable [FloatOps T]

/-! #### Flattened evaluators

Whenever the set-up loop of `interp_one` succeeds, the strides it has computed address `vals` in C
order. (That it succeeds on every grid accepted by `new` is C05–C07.) -/

/-- C46, `MultilinearRegular`. -/
theorem C46_multilinear_regular {dims : Fin N → Nat} {starts steps : Fin N → T} {vals : List T}
    {s : MultilinearRegular T N} (h : MultilinearRegular.new dims starts steps vals = .ok s) (fma : Bool)
    (x : Fin N → T) {st} (hst : s.setup fma x = .ok st) :
    AddressesCOrder indexArr dims vals st.2.1 := by
  have e := MultilinearRegular.setup_form fma s x (β := Fin N → Nat) (fun d _ _ => .ok d)
  rw [hst, Res.ok_bind] at e
  obtain ⟨rfl, hg, _⟩ := MultilinearRegular.new_ok h
  rw [flatSetup_strides (by omega) hg e.symm]
  exact addresses_strides hg

/-- C46, `MultilinearRectilinear`. -/
theorem C46_multilinear_rectilinear {grids : Fin N → List T} {vals : List T}
    {s : MultilinearRectilinear T N} (h : MultilinearRectilinear.new grids vals = .ok s)
    (x : Fin N → T) {st} (hst : s.setup x = .ok st) :
    AddressesCOrder indexArr (fun k => (grids k).length) vals st.2.1 := by
  have e := MultilinearRectilinear.setup_form s x (β := Fin N → Nat) (fun d _ => .ok d)
  rw [hst, Res.ok_bind] at e
  obtain ⟨rfl, hg, _⟩ := MultilinearRectilinear.new_ok h
  rw [flatSetup_strides (by omega) hg e.symm]
  exact addresses_strides hg

/-- C46, `NearestRegular`. -/
theorem C46_nearest_regular {dims : Fin N → Nat} {starts steps : Fin N → T} {vals : List T}
    {s : NearestRegular T N} (h : NearestRegular.new dims starts steps vals = .ok s) (fma : Bool)
    (x : Fin N → T) {st} (hst : s.setup fma x = .ok st) :
    AddressesCOrder indexArrFixedDims dims vals st.2.1 := by
  have e := NearestRegular.setup_form fma s x (β := Fin N → Nat) (fun d _ => .ok d)
  rw [hst, Res.ok_bind] at e
  obtain ⟨rfl, hg, _⟩ := NearestRegular.new_ok h
  rw [flatSetup_strides (by omega) hg e.symm]
  exact addresses_strides hg

/-- C46, `NearestRectilinear`. -/
theorem C46_nearest_rectilinear {grids : Fin N → List T} {vals : List T}
    {s : NearestRectilinear T N} (h : NearestRectilinear.new grids vals = .ok s)
    (x : Fin N → T) {st} (hst : s.setup x = .ok st) :
    AddressesCOrder indexArrFixedDims (fun k => (grids k).length) vals st.2.1 := by
  have e := NearestRectilinear.setup_form s x (β := Fin N → Nat) (fun d _ => .ok d)
  rw [hst, Res.ok_bind] at e
  obtain ⟨rfl, hg, _⟩ := NearestRectilinear.new_ok h
  rw [flatSetup_strides (by omega) hg e.symm]
  exact addresses_strides hg

/-- C46, `MulticubicRegular`. -/
theorem C46_multicubic_regular {dims : Fin N → Nat} {starts steps : Fin N → T} {vals : List T} {lin : Bool}
    {s : MulticubicRegular T N} (h : MulticubicRegular.new dims starts steps vals lin = .ok s)
    (x : Fin N → T) {st} (hst : s.setup x = .ok st) :
    AddressesCOrder indexArr dims vals st.2.1 := by
  have e := MulticubicRegular.setup_form s x (β := Fin N → Nat) (fun d _ _ _ => .ok d)
  rw [hst, Res.ok_bind] at e
  obtain ⟨rfl, hg, _⟩ := MulticubicRegular.new_ok h
  rw [flatSetup_strides (by omega) hg e.symm]
  exact addresses_strides hg

/-- C46, `MulticubicRectilinear`. -/
theorem C46_multicubic_rectilinear {grids : Fin N → List T} {vals : List T} {lin : Bool}
    {s : MulticubicRectilinear T N} (h : MulticubicRectilinear.new grids vals lin = .ok s)
    (x : Fin N → T) {st} (hst : s.setup x = .ok st) :
    AddressesCOrder indexArr (fun k => (grids k).length) vals st.2.1 := by
  have e := MulticubicRectilinear.setup_form s x (β := Fin N → Nat) (fun d _ _ => .ok d)
  rw [hst, Res.ok_bind] at e
  obtain ⟨rfl, hg, _⟩ := MulticubicRectilinear.new_ok h
  rw [flatSetup_strides (by omega) hg e.symm]
  exact addresses_strides hg

/-! #### Recursive evaluators

The stride loop succeeds on every accepted grid. -/

/-- C46, `MultilinearRegularRecursive`. -/
theorem C46_multilinear_regular_recursive {M : Nat} {dims : List Nat} {starts steps vals : List T}
    {s : MultilinearRegularRecursive T M}
    (h : MultilinearRegularRecursive.new M dims starts steps vals = .ok s) :
    s.ndims = dims.length ∧ ∃ dimprod, s.strideLoop = .ok dimprod ∧
      AddressesCOrder indexArr (fun k : Fin s.ndims => dims.getD k 0) vals dimprod := by
  obtain ⟨⟨_, _, _, hM⟩, hc, rfl⟩ := MultilinearRegularRecursive.new_ok h
  obtain ⟨hp, hl, hmin, _⟩ := checkRegular_eq_ok.1 hc
  have hg := goodVals_list hp hl hmin
  have := hg.len; have := hg.max
  exact ⟨rfl, _, recDimprod_eq _ hM _ (fun k hk => hg.pos (by omega) ⟨k.1, hk⟩)
    (by simp only [Fin.val_castLE]; omega), addresses_strides hg⟩

/-- C46, `MultilinearRectilinearRecursive`. -/
theorem C46_multilinear_rectilinear_recursive {M : Nat} {grids : List (List T)} {vals : List T}
    {s : MultilinearRectilinearRecursive T M}
    (h : MultilinearRectilinearRecursive.new M grids vals = .ok s) :
    s.grids = grids ∧ ∃ dimprod, s.strideLoop = .ok dimprod ∧
      AddressesCOrder indexArr (fun k : Fin s.grids.length => s.grids[k].length) vals dimprod := by
  have h' := h
  rw [MultilinearRectilinearRecursive.new_form, Res.bind_eq_ok] at h'
  obtain ⟨d, h1, _⟩ := h'
  obtain ⟨h0, hM⟩ := checkRectilinearRec_ok h1
  rw [MultilinearRectilinearRecursive.new_eq h0 hM, Res.bind_eq_ok] at h
  obtain ⟨_, hc, hs⟩ := h
  obtain ⟨hp, hl, hmin, _⟩ := (checkRectilinear_eq_ok (by omega)).1 hc
  cases hs
  have eo : List.ofFn (fun k : Fin grids.length => grids[k].length) = grids.map List.length := by
    apply List.ext_getElem <;> simp
  have hg : GoodVals 2 (fun k : Fin grids.length => grids[k].length) vals :=
    goodVals_of (by rw [eo]; exact hp) (by rw [eo]; exact hl)
      (by rw [eo]; simpa using hmin)
  have := hg.len; have := hg.max
  have e : (fun k : Fin grids.length => (grids.map List.length).getD k.val 1) =
      fun k : Fin grids.length => grids[k].length := by funext k; simp
  refine ⟨rfl, _, recDimprod_eq grids.length hM _ (fun k hk => ?_) ?_, ?_⟩
  · have := congrFun e ⟨k.1, hk⟩
    simp only at this ⊢
    rw [this]; exact hg.pos (by omega) _
  · simp only [Fin.val_castLE, e]; omega
  · simp only [Fin.val_castLE, e]; exact addresses_strides hg

/-- C46, `MulticubicRegularRecursive`. -/
theorem C46_multicubic_regular_recursive {M : Nat} {dims : List Nat} {starts steps vals : List T} {lin : Bool}
    {s : MulticubicRegularRecursive T M}
    (h : MulticubicRegularRecursive.new M dims starts steps vals lin = .ok s) :
    s.ndims = dims.length ∧ ∃ dimprod, s.strideLoop = .ok dimprod ∧
      AddressesCOrder indexArr (fun k : Fin s.ndims => dims.getD k 0) vals dimprod := by
  obtain ⟨⟨_, _, _, hM⟩, hc, rfl⟩ := MulticubicRegularRecursive.new_ok h
  obtain ⟨hp, hl, hmin, _⟩ := checkRegular_eq_ok.1 hc
  have hg := goodVals_list hp hl hmin
  have := hg.len; have := hg.max
  exact ⟨rfl, _, recDimprod_eq _ hM _ (fun k hk => hg.pos (by omega) ⟨k.1, hk⟩)
    (by simp only [Fin.val_castLE]; omega), addresses_strides hg⟩

/-- C46, `MulticubicRectilinearRecursive`. -/
theorem C46_multicubic_rectilinear_recursive {M : Nat} {grids : List (List T)} {vals : List T} {lin : Bool}
    {s : MulticubicRectilinearRecursive T M}
    (h : MulticubicRectilinearRecursive.new M grids vals lin = .ok s) :
    s.grids = grids ∧ ∃ dimprod, s.strideLoop = .ok dimprod ∧
      AddressesCOrder indexArr (fun k : Fin s.grids.length => s.grids[k].length) vals dimprod := by
  have h' := h
  rw [MulticubicRectilinearRecursive.new_form, Res.bind_eq_ok] at h'
  obtain ⟨d, h1, _⟩ := h'
  obtain ⟨h0, hM⟩ := checkRectilinearRec_ok h1
  rw [MulticubicRectilinearRecursive.new_eq h0 hM, Res.bind_eq_ok] at h
  obtain ⟨_, hc, hs⟩ := h
  obtain ⟨hp, hl, hmin, _⟩ := (checkRectilinear_eq_ok (by omega)).1 hc
  cases hs
  have eo : List.ofFn (fun k : Fin grids.length => grids[k].length) = grids.map List.length := by
    apply List.ext_getElem <;> simp
  have hg : GoodVals 4 (fun k : Fin grids.length => grids[k].length) vals :=
    goodVals_of (by rw [eo]; exact hp) (by rw [eo]; exact hl)
      (by rw [eo]; simpa using hmin)
  have := hg.len; have := hg.max
  have e : (fun k : Fin grids.length => (grids.map List.length).getD k.val 1) =
      fun k : Fin grids.length => grids[k].length := by funext k; simp
  refine ⟨rfl, _, recDimprod_eq grids.length hM _ (fun k hk => ?_) ?_, ?_⟩
  · have := congrFun e ⟨k.1, hk⟩
    simp only at this ⊢
    rw [this]; exact hg.pos (by omega) _
  · simp only [Fin.val_castLE, e]; omega
  · simp only [Fin.val_castLE, e]; exact addresses_strides hg

/-- C order is a bijection between the nodes and the entries `0 .. ∏ dims - 1`. -/
theorem C46_bijection (dims : Fin N → Nat) :
    (∀ loc : Fin N → Nat, (∀ k, loc k < dims k) → cIndex dims loc < ∏ k, dims k) ∧
    (∀ a b : Fin N → Nat, (∀ k, a k < dims k) → (∀ k, b k < dims k) →
      cIndex dims a = cIndex dims b → a = b) ∧
    (∀ i < ∏ k, dims k, ∃ loc : Fin N → Nat, (∀ k, loc k < dims k) ∧ cIndex dims loc = i) :=
  ⟨cIndex_lt dims, cIndex_inj dims, cIndex_surj dims⟩

/-- C order is lexicographic order on the nodes: along the last axis consecutive nodes are
adjacent entries, and advancing axis `k` by one skips one block of all later axes. -/
theorem C46_lexicographic (dims : Fin (N + 1) → Nat) (loc : Fin (N + 1) → Nat) (i : Nat) :
    cIndex dims (Function.update loc (Fin.last N) (i + 1)) =
      cIndex dims (Function.update loc (Fin.last N) i) + 1 ∧
    cIndex dims loc = cIndex (fun k : Fin N => dims k.succ) (fun k => loc k.succ) +
      loc 0 * ∏ k : Fin N, dims k.succ := by
  constructor
  · simp only [cIndex, Function.update_self]
    have : ∀ j (k : Fin N), Function.update loc (Fin.last N) j k.castSucc = loc k.castSucc := by
      intro j k; rw [Function.update_of_ne (Fin.castSucc_lt_last k).ne]
    simp only [this]; omega
  · induction N with
    | zero => simp [cIndex, Fin.last]
    | succ N ih =>
      rw [cIndex, ih (fun k => dims k.castSucc) (fun k => loc k.castSucc), cIndex,
        Fin.prod_univ_castSucc]
      simp only [Fin.castSucc_zero, Fin.succ_castSucc, Fin.succ_last]
      ring

attribute [local instance] ratOps

/-- A 2×3×2 array: the strides are 6, 2, 1 and node (1, 2, 0) is entry 10, in a flattened and in a
recursive evaluator. -/
example : (do let s ← MultilinearRegular.new (T := ℚ) ![2, 3, 2] ![0, 0, 0] ![1, 1, 1]
                [0, 1, 2, 3, 4, 5, 6, 7, 8, 9, 10, 11]
              let st ← s.setup false ![1/2, 1/2, 1/2]
              return (List.ofFn st.2.1, ← indexArr ![1, 2, 0] st.2.1 s.vals)) =
        .ok ([6, 2, 1], 10) ∧
    (do let s ← NearestRegular.new (T := ℚ) ![2, 3, 2] ![0, 0, 0] ![1, 1, 1]
                [0, 1, 2, 3, 4, 5, 6, 7, 8, 9, 10, 11]
        let st ← s.setup false ![1/2, 1/2, 1/2]
        return (List.ofFn st.2.1, ← indexArrFixedDims ![1, 2, 0] st.2.1 s.vals)) =
        .ok ([6, 2, 1], 10) ∧
    (do let s ← MultilinearRegularRecursive.new (T := ℚ) 4 [2, 3, 2] [0, 0, 0] [1, 1, 1]
                [0, 1, 2, 3, 4, 5, 6, 7, 8, 9, 10, 11]
        return List.ofFn (← s.strideLoop)) = .ok [6, 2, 1] ∧
    cIndex ![2, 3, 2] ![1, 2, 0] = 10 := by
  decide +kernel

end Interpn
