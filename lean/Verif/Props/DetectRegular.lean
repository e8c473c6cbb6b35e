import Verif.Lemmas.DetectRegular
import Verif.Props.NodeErrors
import Verif.Props.IeeeAccuracy
import Verif.Props.Python
import Verif.Props.EntryPoints
import Verif.Props.PythonClasses

/-! C92: the Python function `interpn(..., method="linear")` in IEEE 754 arithmetic, from the decision
whether a grid is regular to the accuracy of the returned array. -/

set_option autoImplicit false
set_option exponentiation.threshold 1100

namespace Interpn
open FloatOps Ieee

section
variable {f : Format} {N : Nat}

/-- C92, what passing the regularity check means: node `i` is the node that the regular routine
assumes, `g[0] + i * step` with the computed `step = g[1] - g[0]`, up to `2 i u step`. -/
theorem C92_detected (hu : f.unitRoundoff ≤ 1 / 2) (g : List (Ieee f))
    (hg : ∀ a ∈ g, Finite a ∧ 2 * |val a| ≤ f.omega) (h2 : 2 ≤ g.length)
    (h : UniformSpacing g) (i : Nat) (hi : i < g.length) :
    Finite (g[1] -. g[0]) ∧
      |val g[i] - (val g[0] + i * val (g[1] -. g[0]))| ≤
        2 * i * f.unitRoundoff * |val (g[1] -. g[0])| := by
  have a := (uniform_spacing hu hg h2 h).1
  have b := uniform_node hu hg h2 h i hi
  rw [List.getD_eq_getElem _ _ (by omega : 0 < g.length),
    List.getD_eq_getElem _ _ (by omega : 1 < g.length)] at a b
  rw [List.getD_eq_getElem _ _ (by simpa using hi), List.getElem_map] at b
  refine ⟨a, ?_⟩
  rw [mul_comm (i : ℚ)]
  refine b.trans_eq ?_
  ring

/-- The exact multilinear result does not depend on the implementation. -/
theorem multilinearAt_impl {K : Type} [Field K] [LinearOrder K] [IsStrictOrderedRing K]
    [FloorRing K] (e e' : Evaluator) (he : e.Fits N) (he' : e'.Fits N) (fma fma' : Bool)
    (G : Axes K N) (vals : List K) (hG : G.Valid 2 vals) (x : Fin N → K) (hx : G.Representable x) :
    multilinearAt e fma G vals x = multilinearAt e' fma' G vals x := by
  have : Inhabited K := ⟨0⟩
  obtain ⟨g, hg⟩ := exists_samples hG.len
  obtain ⟨c, hc⟩ := hG.cells le_rfl x
  rw [multilinearAt_eq e he fma G vals hG g hg x hx c hc,
    multilinearAt_eq e' he' fma' G vals hG g hg x hx c hc]

/-- Regular interpolation on grids that pass the regularity check, compared with exact
interpolation on the grids as given. -/
theorem multilinear_detected_ieee (hη : f.underflow ≤ f.unitRoundoff / 100)
    (hΩ1 : 2 ^ 70 ≤ f.omega) (hp : f.p ≤ 53) (e : Evaluator) (he : e.Fits N) (fma : Bool)
    (κ : ℚ) (hκ : 0 ≤ κ) (hN : 110 * N * (1 + κ) * f.unitRoundoff ≤ 1)
    (grids : Fin N → List (Ieee f)) (vals : List (Ieee f))
    (hG : (Axes.rectilinear fun k => (grids k).map val).Valid 2 (vals.map val))
    (hgrid : ∀ k, ∀ a ∈ grids k, Finite a ∧
      |val a| ≤ κ * (((grids k).map val).getD 1 0 - ((grids k).map val).getD 0 0))
    (hnormal : ∀ k, 2 * f.underflow ≤
      f.unitRoundoff * (((grids k).map val).getD 1 0 - ((grids k).map val).getD 0 0))
    (hlarge : ∀ k, 5 * (κ * (((grids k).map val).getD 1 0 - ((grids k).map val).getD 0 0)) + 1 ≤
      f.omega)
    (huni : ∀ k, UniformSpacing (grids k)) (M : ℚ)
    (hM : 5 * M + 1 ≤ f.omega) (hvals : ∀ v ∈ vals, Finite v ∧ |val v| ≤ M)
    (x : Fin N → Ieee f) (hx : ∀ k, Finite (x k))
    (hin : ∀ k, InRange (grids k).length (fun i => ((grids k).map val).getD i 0) (val (x k))) :
    (∀ k, 0 < val ((grids k).getD 1 zero -. (grids k).getD 0 zero)) ∧
    ∃ r y, multilinearRegularAt e fma (fun k => (grids k).length)
        (fun k => (grids k).getD 0 zero)
        (fun k => (grids k).getD 1 zero -. (grids k).getD 0 zero) vals x = .ok r ∧ Finite r ∧
      multilinearAt e fma (.rectilinear fun k => (grids k).map val) (vals.map val)
        (fun k => val (x k)) = .ok y ∧
      |val r - y| ≤ 110 * N * (1 + κ) * f.unitRoundoff * M + 3 * N * f.underflow := by
  have hu0 := (rounds f).u_nonneg
  have hN0 : 0 < N := by cases e <;> first | exact he | exact he.1
  have hN1 : (1 : ℚ) ≤ N := by exact_mod_cast hN0
  have hlen : ∀ k, 2 ≤ (grids k).length := fun k => by
    have := hG.big k; simpa [Axes.size] using this
  have hM0 := bound_nonneg hG (by norm_num) hvals
  set u := f.unitRoundoff with hudef
  have hκu0 : 0 ≤ (1 + κ) * u := by positivity
  have huκ0 : 0 ≤ u * κ := by positivity
  have huκ : 110 * ((1 + κ) * u) ≤ 1 := by nlinarith
  have hu1 : u ≤ 1 / 110 := by linarith
  have huκ1 : u * κ ≤ 1 / 110 := by linarith
  -- the exact spacing `D k` and the computed step `s k`
  set D : Fin N → ℚ := fun k => ((grids k).map val).getD 1 0 - ((grids k).map val).getD 0 0 with hD
  have hDpos : ∀ k, 0 < D k := fun k => by
    have := hG.increasing k 0 (hG.big k)
    simp only [Axes.node] at this
    simp only [hD]; linarith
  have hgrid2 : ∀ k, ∀ a ∈ grids k, Finite a ∧ 2 * |val a| ≤ f.omega := fun k a ha => by
    have h1 := (hgrid k a ha).2
    have h2 := hlarge k
    have h3 : 0 ≤ κ * (((grids k).map val).getD 1 0 - ((grids k).map val).getD 0 0) :=
      mul_nonneg hκ (hDpos k).le
    exact ⟨(hgrid k a ha).1, by linarith⟩
  set s : Fin N → ℚ := fun k => val ((grids k).getD 1 zero -. (grids k).getD 0 zero) with hs
  have hsp := fun k => uniform_spacing (by linarith : f.unitRoundoff ≤ 1 / 2) (hgrid2 k) (hlen k)
    (huni k)
  have hspos : ∀ k, 0 < s k := fun k => by
    have h1 := (hsp k).2 0 (hlen k)
    have h2 := hDpos k
    by_contra hneg
    have hneg' : s k ≤ 0 := not_lt.1 hneg
    change |D k - s k| ≤ 2 * u * |s k| at h1
    rw [abs_of_nonpos hneg'] at h1
    have h3 := (abs_le.1 h1).2
    have : 2 * u * -s k ≤ 1 * -s k := by gcongr <;> linarith
    linarith
  have hDs : ∀ k, D k ≤ 102 / 100 * s k ∧ 98 / 100 * s k ≤ D k := fun k => by
    have h1 := (hsp k).2 0 (hlen k)
    change |D k - s k| ≤ 2 * u * |s k| at h1
    rw [abs_of_pos (hspos k)] at h1
    have h3 := abs_le.1 h1
    have : 2 * u * s k ≤ 2 / 100 * s k := by
      have := (hspos k).le
      gcongr; linarith
    constructor <;> linarith [h3.1, h3.2]
  -- nodes
  have hsize : ∀ k i, i < (grids k).length → |((grids k).map val).getD i 0| ≤
      102 / 100 * κ * s k := fun k i hi => by
    rw [List.getD_eq_getElem _ _ (by simpa using hi), List.getElem_map]
    refine (hgrid k _ (List.getElem_mem hi)).2.trans ?_
    have := (hDs k).1
    calc κ * D k ≤ κ * (102 / 100 * s k) := by gcongr
      _ = _ := by ring
  have hnode := fun k => uniform_node (by linarith : f.unitRoundoff ≤ 1 / 2) (hgrid2 k) (hlen k)
    (huni k)
  have hn : ∀ k, (((grids k).length - 1 : Nat) : ℚ) ≤ 21 / 10 * κ := fun k => by
    have hl := hlen k
    have h1 := hnode k ((grids k).length - 1) (by omega)
    have h2 := hnode k 0 (by omega)
    have h3 := hsize k ((grids k).length - 1) (by omega)
    have h4 := hsize k 0 (by omega)
    change |_ - (_ + s k * _)| ≤ 2 * u * _ * |s k| at h1 h2
    rw [abs_of_pos (hspos k)] at h1 h2
    simp only [Nat.cast_zero, mul_zero, zero_mul, add_zero] at h2
    have h5 := abs_le.1 h1
    have h6 := abs_le.1 h2
    have h7 := abs_le.1 h3
    have h8 := abs_le.1 h4
    set n := (((grids k).length - 1 : Nat) : ℚ)
    have hn0 : 0 ≤ n := Nat.cast_nonneg _
    have h9 : 2 * u * n * s k ≤ 2 / 110 * n * s k := by
      have := (hspos k).le
      gcongr; linarith
    have h10 : n * s k ≤ 21 / 10 * κ * s k := by
      have : 0 ≤ κ * s k := mul_nonneg hκ (hspos k).le
      linarith [h5.1, h6.2, h7.2, h8.1]
    exact le_of_mul_le_mul_right h10 (hspos k)
  set ε : ℚ := 42 / 10 * (u * κ) with hε
  have hε0 : 0 ≤ ε := by positivity
  have hclose : ∀ k i, i < (grids k).length →
      |(val ((grids k).getD 0 zero) + s k * (i : ℚ)) - ((grids k).map val).getD i 0| ≤ ε * s k := by
    intro k i hi
    rw [abs_sub_comm]
    refine (hnode k i hi).trans ?_
    change 2 * u * i * |s k| ≤ _
    rw [abs_of_pos (hspos k)]
    have h1 : (i : ℚ) ≤ (((grids k).length - 1 : Nat) : ℚ) := by
      exact_mod_cast (by omega : i ≤ (grids k).length - 1)
    have h2 := h1.trans (hn k)
    have h3 := (hspos k).le
    calc 2 * u * i * s k ≤ 2 * u * (21 / 10 * κ) * s k := by gcongr
      _ = ε * s k := by rw [hε]; ring
  have hstart : ∀ k, val ((grids k).getD 0 zero) = ((grids k).map val).getD 0 0 := fun k => by
    have hl := hlen k
    rw [List.getD_eq_getElem _ _ (by omega : 0 < (grids k).length),
      List.getD_eq_getElem _ _ (by simp; omega), List.getElem_map]
  have hG' : (Axes.regular (fun k => (grids k).length) (fun k => val ((grids k).getD 0 zero)) s).Valid
      2 (vals.map val) := by
    refine ⟨hG.slice, by have := hG.len; simpa [Axes.size] using this, hlen, fun k i _ => ?_⟩
    simp only [Axes.node]
    push_cast
    have := hspos k
    linarith
  have hxs : ∀ k, |val (x k)| ≤ 107 / 100 * κ * s k := fun k => by
    have hl := hlen k
    have h1 := abs_le.1 (hsize k 0 (by omega))
    have h2 := abs_le.1 (hsize k ((grids k).length - 1) (by omega))
    have ⟨h3, h4⟩ := hin k
    have : 0 ≤ κ * s k := mul_nonneg hκ (hspos k).le
    rw [abs_le]
    constructor <;> linarith [h1.1, h2.2]
  have hnear : ∀ k, NearRange (grids k).length
      (fun i => val ((grids k).getD 0 zero) + s k * (i : ℚ)) ε (val (x k)) := fun k => by
    have hl := hlen k
    have ⟨h3, h4⟩ := hin k
    have h5 := abs_le.1 (hclose k ((grids k).length - 1) (by omega))
    have h6 : 0 ≤ ε * s k := mul_nonneg hε0 (hspos k).le
    have e1 : (((grids k).length - 1 : Nat) : ℚ) = (((grids k).length - 2 : Nat) : ℚ) + 1 := by
      have : (grids k).length - 1 = (grids k).length - 2 + 1 := by omega
      exact_mod_cast congrArg (fun n : Nat => (n : ℚ)) this
    constructor
    · simp only [Nat.cast_zero, mul_zero, add_zero, Nat.cast_one, mul_one, hstart k] at h3 ⊢
      linarith
    · have e2 : ε * (val ((grids k).getD 0 zero) + s k * (((grids k).length - 1 : Nat) : ℚ) -
          (val ((grids k).getD 0 zero) + s k * (((grids k).length - 2 : Nat) : ℚ))) = ε * s k := by
        rw [e1]; ring
      simp only at h4 ⊢
      rw [e2]
      linarith [h5.1]
  have hNκ : (N : ℚ) * (u * κ) ≤ N * ((1 + κ) * u) :=
    mul_le_mul_of_nonneg_left (by linarith) (Nat.cast_nonneg N)
  have hNκ0 : 0 ≤ (N : ℚ) * (u * κ) := by positivity
  obtain ⟨r, y', h1, h2, h3, h4⟩ := multilinear_regular_ieee_near hη hΩ1 hp e he fma
    (107 / 100 * κ) (by positivity) (by linarith) (fun k => (grids k).length)
    (fun k => (grids k).getD 0 zero) (fun k => (grids k).getD 1 zero -. (grids k).getD 0 zero) vals
    hG' (fun k => ⟨by
      have hl := hlen k
      rw [List.getD_eq_getElem _ _ (by omega : 0 < (grids k).length)]
      exact (hgrid k _ (List.getElem_mem _)).1, (hsp k).1⟩)
    (fun k => by
      have a := hnormal k
      change 2 * f.underflow ≤ u * D k at a
      have b : u * D k ≤ u * (2 * s k) := by
        have := (hDs k).1
        have := hspos k
        gcongr; linarith
      change f.underflow ≤ u * s k
      linarith)
    (fun k => by
      have hl := hlen k
      have a := hsize k 0 (by omega)
      have b := hsize k ((grids k).length - 1) (by omega)
      have c := abs_le.1 (hclose k ((grids k).length - 1) (by omega))
      have d : 0 ≤ κ * s k := mul_nonneg hκ (hspos k).le
      have d2 : ε * s k ≤ 5 / 100 * (κ * s k) := by
        have : ε * s k = 42 / 10 * (u * (κ * s k)) := by rw [hε]; ring
        have : u * (κ * s k) ≤ 1 / 110 * (κ * s k) := by gcongr
        linarith
      constructor
      · rw [hstart k]
        change _ ≤ 107 / 100 * κ * s k
        linarith
      · change |_ + s k * _| ≤ 107 / 100 * κ * s k
        have b' := abs_le.1 b
        rw [abs_le]
        constructor <;> linarith [c.1, c.2, b'.1, b'.2])
    (fun k => by
      have a := hlarge k
      change 5 * (κ * D k) + 1 ≤ f.omega at a
      change 4 * (107 / 100 * κ * s k) + 1 ≤ f.omega
      have b : κ * (98 / 100 * s k) ≤ κ * D k := by
        have := (hDs k).2
        gcongr
      have d : 0 ≤ κ * s k := mul_nonneg hκ (hspos k).le
      linarith) M hM hvals ε hε0 (by linarith) x (fun k => ⟨hx k, hxs k⟩) hnear
  have hrep : (Axes.regular (fun k => (grids k).length) (fun k => val ((grids k).getD 0 zero)) s
      ).Representable fun k => val (x k) := by
    intro k
    have hl := hlen k
    have ⟨h5, h6⟩ := hin k
    have h7 := abs_le.1 (hclose k ((grids k).length - 1) (by omega))
    have hκ53 := (regular_setup hp hκ (by linarith : 100 * ((1 + κ) * f.unitRoundoff) ≤ 1)).2.2.1
    have hq : (val (x k) - val ((grids k).getD 0 zero)) / s k ≤ 2 ^ 56 := by
      rw [div_le_iff₀ (hspos k)]
      have h8 : s k * (((grids k).length - 1 : Nat) : ℚ) ≤ s k * (21 / 10 * 2 ^ 53) := by
        have := (hspos k).le
        have := (hn k).trans (by linarith : 21 / 10 * κ ≤ 21 / 10 * 2 ^ 53)
        gcongr
      have h9 : ε * s k ≤ 1 * s k := by
        have := (hspos k).le
        gcongr; linarith
      simp only at h6
      have := hspos k
      linarith [h7.1]
    have hq0 : 0 ≤ (val (x k) - val ((grids k).getD 0 zero)) / s k := by
      refine div_nonneg ?_ (hspos k).le
      rw [hstart k]; simp only at h5; linarith
    constructor
    · refine le_trans (by norm_num [isizeMin]) (Int.floor_nonneg.2 hq0)
    · rw [← Int.lt_add_one_iff, Int.floor_lt]
      refine lt_of_le_of_lt hq ?_
      norm_num [isizeMax]
  obtain ⟨y, y'', h5, h6, h7⟩ := C91_nodes_moved e e he he fma fma
    (.rectilinear fun k => (grids k).map val)
    (.regular (fun k => (grids k).length) (fun k => val ((grids k).getD 0 zero)) s) (vals.map val)
    hG hG' (fun k => by simp [Axes.size]) s hspos
    (fun k i _ => by simp only [Axes.node]; push_cast; linarith) ε
    (fun k i hi => hclose k i hi) M
    (fun v hv => by
      obtain ⟨w, hw, rfl⟩ := List.mem_map.1 hv
      exact (hvals w hw).2)
    (fun k => val (x k)) (fun k => by
      have := hin k
      rwa [← List.length_map (as := grids k) val] at this) hrep
  have e1 : y'' = y' := by
    have := h6.symm.trans h3
    exact (Res.ok.injEq _ _).mp this
  subst e1
  refine ⟨hspos, r, y, h1, h2, h5, ?_⟩
  have h8 := one_add_pow_le (β := 2 * ε) (by positivity) N (by
    have : 2 * (N : ℚ) * (2 * ε) = 168 / 10 * (N * (u * κ)) := by rw [hε]; ring
    linarith)
  have h9 : ((1 + 2 * ε) ^ N - 1) * M ≤ 2 * N * (2 * ε) * M := by
    gcongr; linarith
  have h10 := abs_add_le (val r - y'') (y'' - y)
  rw [sub_add_sub_cancel] at h10
  have h12 : 0 ≤ (N : ℚ) * (u * κ) * M := by positivity
  have h13 : 0 ≤ (N : ℚ) * u * M := by positivity
  have e2 : 2 * N * (2 * ε) * M = 168 / 10 * (N * (u * κ) * M) := by rw [hε]; ring
  have e3 : 80 * N * (1 + 107 / 100 * κ) * u * M =
      80 * (N * u * M) + 856 / 10 * (N * (u * κ) * M) := by ring
  have e4 : 110 * N * (1 + κ) * u * M = 110 * (N * u * M) + 110 * (N * (u * κ) * M) := by ring
  rw [e4]; rw [e3] at h4; rw [e2] at h9
  linarith

/-- A batch whose observations all have a value is evaluated completely. -/
theorem batch_complete {T : Type} [FloatOps T] (h1 : 1 ≤ N) {one : (Fin N → T) → Res T}
    {interp : (Fin N → List T) → List T → Res Unit × List T} (h : BatchSpec one interp)
    (x : Fin N → List T) (out : List T) (hlen : ∀ k, (x k).length = out.length)
    (P : (Fin N → T) → T → Prop)
    (hP : ∀ pt, (∀ k, pt k ∈ x k) → ∃ r, one pt = .ok r ∧ P pt r) :
    ∃ res, interp x out = (.ok (), res) ∧ res.length = out.length ∧
      ∀ i pt, PointAt x i pt → ∃ r, res[i]? = some r ∧ P pt r := by
  rcases h.total x out hlen with ⟨res, hl, hr⟩ | ⟨vs, pt, -, -, hpt, hbad⟩
  · refine ⟨res, (h.ok_iff x out res).2 ⟨hlen, hl, hr⟩, hl, fun i pt hpt => ?_⟩
    have hi : i < res.length := by
      have := hpt ⟨0, h1⟩
      obtain ⟨h2, -⟩ := List.getElem?_eq_some_iff.1 this
      rw [hl, ← hlen ⟨0, h1⟩]; exact h2
    obtain ⟨r, hr1, hr2⟩ := hP pt fun k => List.mem_of_getElem? (hpt k)
    obtain ⟨pt', h3, h4⟩ := hr i res[i] (List.getElem?_eq_getElem hi)
    have e : pt' = pt := funext fun k => by
      have := (h3 k).symm.trans (hpt k)
      simpa using this
    rw [e, hr1] at h4
    have e2 : r = res[i] := (Res.ok.injEq _ _).mp h4
    exact ⟨r, by rw [e2]; exact List.getElem?_eq_getElem hi, hr2⟩
  · obtain ⟨r, hr1, -⟩ := hP pt fun k => List.mem_of_getElem? (hpt k)
    rcases hbad with ⟨e, he⟩ | he <;> rw [hr1] at he <;> cases he

theorem interpn_linear_ieee (hη : f.underflow ≤ f.unitRoundoff / 100)
    (hΩ1 : 2 ^ 70 ≤ f.omega) (hp : f.p ≤ 53) (hu : f.unitRoundoff ≤ 1 / 1000)
    (fma : Bool) (dt : Dtype) (hdt : dt ≠ .other)
    (lin : Bool) (atol : Ieee f) (h1 : 1 ≤ N) (h8 : N ≤ 8)
    (κ : ℚ) (hκ : 0 ≤ κ) (hN : 110 * N * (1 + κ) * f.unitRoundoff ≤ 1)
    (grids : Fin N → List (Ieee f)) (vals : List (Ieee f))
    (hG : (Axes.rectilinear fun k => (grids k).map val).Valid 2 (vals.map val))
    (hgrid : ∀ k, ∀ a ∈ grids k, Finite a ∧
      |val a| ≤ κ * (((grids k).map val).getD 1 0 - ((grids k).map val).getD 0 0))
    (hnormal : ∀ k, 2 * f.underflow ≤
      f.unitRoundoff * (((grids k).map val).getD 1 0 - ((grids k).map val).getD 0 0))
    (hlarge : ∀ k, 5 * (κ * (((grids k).map val).getD 1 0 - ((grids k).map val).getD 0 0)) + 1 ≤
      f.omega) (M : ℚ)
    (hM : 5 * M + 1 ≤ f.omega) (hvals : ∀ v ∈ vals, Finite v ∧ |val v| ≤ M)
    (obs : Fin N → List (Ieee f)) (m : Nat)
    (hobs : ∀ k, (obs k).length = m ∧ ∀ a ∈ obs k, Finite a ∧
      InRange (grids k).length (fun i => ((grids k).map val).getD i 0) (val a)) :
    ∃ reg res, pyInterpn fma dt (List.ofFn obs) (List.ofFn grids) vals "linear" none lin false false
        atol = .ok (⟨"linear", reg, dt⟩, res) ∧
      (reg = true ↔ ∀ k, UniformSpacing (grids k)) ∧ res.length = m ∧
      ∀ i pt, PointAt obs i pt → ∃ r y, res[i]? = some r ∧ Finite r ∧
        multilinearAt .flat false (.rectilinear fun k => (grids k).map val) (vals.map val)
          (fun k => val (pt k)) = .ok y ∧
        |val r - y| ≤ 110 * N * (1 + κ) * f.unitRoundoff * M + 3 * N * f.underflow := by
  have hu0 := (rounds f).u_nonneg
  have hlen : ∀ k, 2 ≤ (grids k).length := fun k => by
    have := hG.big k; simpa [Axes.size] using this
  have hM0 := bound_nonneg hG (by norm_num) hvals
  have hslice : IsSlice vals := by
    have := hG.slice; rw [isSlice_iff] at this ⊢; simpa using this
  have hvlen : vals.length = ∏ k, (grids k).length := by
    have := hG.len; simpa [Axes.size] using this
  have hpos : ∀ k, 0 < ((grids k).map val).getD 1 0 - ((grids k).map val).getD 0 0 := fun k => by
    have := hG.increasing k 0 (hG.big k)
    simp only [Axes.node] at this
    linarith
  have hfits := linearImpl_fits (N := N) h1
  have hout : pyOut none (List.ofFn obs) = .ok (List.replicate m (zero : Ieee f)) := by
    obtain ⟨n, rfl⟩ : ∃ n, N = n + 1 := ⟨N - 1, by omega⟩
    rw [(C49_out _ (obs 0)).1 (by rw [List.ofFn_succ]; rfl), (hobs 0).1]
  have h2' : ∀ g ∈ List.ofFn grids, 2 ≤ g.length := fun g hg => by
    obtain ⟨k, rfl⟩ := List.mem_ofFn.1 hg
    exact hlen k
  have himpl : ∀ x : Fin N → ℚ, multilinearAt (linearImpl N) fma
      (.rectilinear fun k => (grids k).map val) (vals.map val) x =
      multilinearAt .flat false (.rectilinear fun k => (grids k).map val) (vals.map val) x :=
    fun x => multilinearAt_impl _ .flat hfits h1 _ _ _ _ hG x trivial
  have huni : (∀ g ∈ List.ofFn grids, UniformSpacing g) ↔ ∀ k, UniformSpacing (grids k) :=
    ⟨fun h k => h _ (List.mem_ofFn.2 ⟨k, rfl⟩), fun h g hg => by
      obtain ⟨k, rfl⟩ := List.mem_ofFn.1 hg
      exact h k⟩
  by_cases hreg : ∀ k, UniformSpacing (grids k)
  · have hpt := fun (pt : Fin N → Ieee f) (hp' : ∀ k, pt k ∈ obs k) =>
      multilinear_detected_ieee hη hΩ1 hp (linearImpl N) hfits fma κ hκ hN grids vals hG hgrid hnormal
        hlarge hreg M hM hvals pt (fun k => ((hobs k).2 _ (hp' k)).1)
        (fun k => ((hobs k).2 _ (hp' k)).2)
    have hacc : RegularAccepted 2 (fun k => (grids k).length)
        (fun k => (grids k).getD 1 zero -. (grids k).getD 0 zero) vals := by
      refine ⟨hslice, hvlen, hlen, fun k => ?_⟩
      have hg2 : ∀ a ∈ grids k, Finite a ∧ 2 * |val a| ≤ f.omega := fun a ha => by
        have a1 := (hgrid k a ha).2
        have a2 := hlarge k
        have a3 := mul_nonneg hκ (hpos k).le
        exact ⟨(hgrid k a ha).1, by linarith⟩
      have hs := uniform_spacing (by linarith : f.unitRoundoff ≤ 1 / 2) hg2 (hlen k) (hreg k)
      refine (exactCompare f _ _ (zero_eq (f := f)).1 hs.1).2 ?_
      rw [(zero_eq (f := f)).2]
      have a := hs.2 0 (hlen k)
      have b := hpos k
      by_contra hneg
      have hneg' := not_lt.1 hneg
      rw [abs_of_nonpos hneg'] at a
      have c := (abs_le.1 a).2
      set s := val ((grids k).getD 1 zero -. (grids k).getD 0 zero)
      have : 2 * f.unitRoundoff * -s ≤ 1 * -s := by gcongr <;> linarith
      linarith
    have hb := C10_C11_multilinear_regular_entry fma h1 h8 (fun k => (grids k).length)
      (fun k => (grids k).getD 0 zero) (fun k => (grids k).getD 1 zero -. (grids k).getD 0 zero)
      vals hacc
    obtain ⟨res, e1, e2, e3⟩ := batch_complete h1 hb obs (List.replicate m (zero : Ieee f))
      (fun k => by rw [(hobs k).1, List.length_replicate])
      (fun pt r => ∃ y, Finite r ∧
        multilinearAt .flat false (.rectilinear fun k => (grids k).map val) (vals.map val)
          (fun k => val (pt k)) = .ok y ∧
        |val r - y| ≤ 110 * N * (1 + κ) * f.unitRoundoff * M + 3 * N * f.underflow)
      (fun pt hp' => by
        obtain ⟨-, r, y, a, b, c, d⟩ := hpt pt hp'
        exact ⟨r, a, y, b, by rw [← himpl]; exact c, d⟩)
    refine ⟨true, res, ?_, by simpa using hreg, by rw [e2, List.length_replicate], fun i pt hi => ?_⟩
    · rw [show "linear" = PyMethod.linear.name from rfl,
        C49_regular fma dt hdt .linear _ _ vals none _ lin false atol hout
          (by rw [List.length_ofFn]; exact h8) h2' (.inr (huni.2 hreg))]
      simp only [List.map_ofFn]
      have : (PyMethod.linear.runRegular fma (List.ofFn (List.length ∘ grids))
          (List.ofFn ((fun g => g.getD 0 zero) ∘ grids))
          (List.ofFn ((fun g => g.getD 1 zero -. g.getD 0 zero) ∘ grids)) vals lin (List.ofFn obs)
          (List.replicate m (zero : Ieee f))) = (.ok (), res) := e1
      rw [this]; rfl
    · obtain ⟨r, a, y, b⟩ := e3 i pt hi
      exact ⟨r, y, a, b⟩
  · have hN26 : 26 * N * f.unitRoundoff ≤ 1 := by
      have : 0 ≤ (N : ℚ) * f.unitRoundoff := by positivity
      have : 0 ≤ (N : ℚ) * f.unitRoundoff * κ := by positivity
      linarith
    have hg2 : ∀ k, ∀ a ∈ grids k, Finite a ∧ 2 * |val a| ≤ f.omega := fun k a ha => by
      have a1 := (hgrid k a ha).2
      have a2 := hlarge k
      have a3 := mul_nonneg hκ (hpos k).le
      exact ⟨(hgrid k a ha).1, by linarith⟩
    have hacc : RectilinearAccepted 2 grids vals := by
      refine ⟨hslice, hvlen, hlen, fun k => ?_⟩
      have h2 := hlen k
      have h01 := hpos k
      match hgk : grids k with
      | [] => rw [hgk] at h2; simp at h2
      | [_] => rw [hgk] at h2; simp at h2
      | a :: b :: rest =>
        refine ⟨a, b, rest, rfl, ?_⟩
        rw [hgk] at h01
        refine (exactCompare f _ _ (hg2 k a (by simp [hgk])).1 (hg2 k b (by simp [hgk])).1).2 ?_
        simp only [List.map_cons, List.getD_cons_succ, List.getD_cons_zero] at h01
        linarith
    have hb := C10_C11_multilinear_rectilinear_entry fma h1 h8 grids vals hacc
    obtain ⟨res, e1, e2, e3⟩ := batch_complete h1 hb obs (List.replicate m (zero : Ieee f))
      (fun k => by rw [(hobs k).1, List.length_replicate])
      (fun pt r => ∃ y, Finite r ∧
        multilinearAt .flat false (.rectilinear fun k => (grids k).map val) (vals.map val)
          (fun k => val (pt k)) = .ok y ∧
        |val r - y| ≤ 110 * N * (1 + κ) * f.unitRoundoff * M + 3 * N * f.underflow)
      (fun pt hp' => by
        obtain ⟨r, y, a, b, c, d⟩ := multilinear_rectilinear_ieee hu hη
          (le_trans (by norm_num) hΩ1) (linearImpl N) hfits fma hN26 grids vals hG hg2 M hM hvals pt
          (fun k => ((hobs k).2 _ (hp' k)).1) (fun k => ((hobs k).2 _ (hp' k)).2)
        refine ⟨r, a, y, b, by rw [← himpl]; exact c, d.trans ?_⟩
        have x1 : 0 ≤ (N : ℚ) * f.unitRoundoff * M := by positivity
        have x2 : 0 ≤ (N : ℚ) * f.unitRoundoff * M * κ := by positivity
        linarith)
    refine ⟨false, res, ?_, by simpa using hreg, by rw [e2, List.length_replicate],
      fun i pt hi => ?_⟩
    · rw [show "linear" = PyMethod.linear.name from rfl,
        C49_rectilinear fma dt hdt .linear _ _ vals none _ lin false atol hout
          (by rw [List.length_ofFn]; exact h8) (by rw [List.length_ofFn]; exact h8) h2'
          (by rw [huni]; simpa using hreg)]
      have : (PyMethod.linear.runRectilinear fma (List.ofFn grids) vals lin (List.ofFn obs)
          (List.replicate m (zero : Ieee f))) = (.ok (), res) := e1
      rw [this]; rfl
    · obtain ⟨r, a, y, b⟩ := e3 i pt hi
      exact ⟨r, y, a, b⟩

end

section
variable {N : Nat}

/-- C92, `f64`: `interpn(obs, grids, vals, method="linear")` with 1 to 8 increasing grids whose nodes
are at most `κ` times their first spacing in size, and observations in range. The call succeeds; it
uses the regular routine exactly if every grid has uniform spacing, as computed; and every entry of
the returned array is finite and differs from the exact multilinear interpolant on the grids as given
by at most `110 N (1 + κ) 2^-53 M`, plus underflow. -/
theorem C92_interpn_f64 (fma lin : Bool) (atol : F64) (h1 : 1 ≤ N) (h8 : N ≤ 8)
    (κ : ℚ) (hκ : 0 ≤ κ) (hN : 110 * N * (1 + κ) ≤ 2 ^ 53)
    (grids : Fin N → List F64) (vals : List F64)
    (hG : (Axes.rectilinear fun k => (grids k).map val).Valid 2 (vals.map val))
    (hgrid : ∀ k, ∀ a ∈ grids k, Finite a ∧
      |val a| ≤ κ * (((grids k).map val).getD 1 0 - ((grids k).map val).getD 0 0))
    (hnormal : ∀ k, 1 / 2 ^ 1021 ≤ ((grids k).map val).getD 1 0 - ((grids k).map val).getD 0 0)
    (hlarge : ∀ k, κ * (((grids k).map val).getD 1 0 - ((grids k).map val).getD 0 0) ≤ 2 ^ 1020)
    (M : ℚ) (hM : M ≤ 2 ^ 1020) (hvals : ∀ v ∈ vals, Finite v ∧ |val v| ≤ M)
    (obs : Fin N → List F64) (m : Nat)
    (hobs : ∀ k, (obs k).length = m ∧ ∀ a ∈ obs k, Finite a ∧
      InRange (grids k).length (fun i => ((grids k).map val).getD i 0) (val a)) :
    ∃ reg res, pyInterpn fma .float64 (List.ofFn obs) (List.ofFn grids) vals "linear" none lin false
        false atol = .ok (⟨"linear", reg, .float64⟩, res) ∧
      (reg = true ↔ ∀ k, UniformSpacing (grids k)) ∧ res.length = m ∧
      ∀ i pt, PointAt obs i pt → ∃ r y, res[i]? = some r ∧ Finite r ∧
        multilinearAt .flat false (.rectilinear fun k => (grids k).map val) (vals.map val)
          (fun k => val (pt k)) = .ok y ∧
        |val r - y| ≤ 110 * N * (1 + κ) * (1 / 2 ^ 53) * M + 3 * N * (1 / 2 ^ 1075) := by
  have hΩ := binary64_Ω
  have := interpn_linear_ieee (f := Format.binary64)
    (by rw [binary64_u, binary64_η]; norm_num) (le_trans (by norm_num) hΩ) le_rfl
    (by rw [binary64_u]; norm_num) fma .float64 (by decide) lin atol h1 h8 κ hκ
    (by rw [binary64_u]; linarith) grids vals hG hgrid
    (fun k => by
      rw [binary64_u, binary64_η]
      have := hnormal k
      have e : 2 * ((1 : ℚ) / 2 ^ 1075) = 1 / 2 ^ 53 * (1 / 2 ^ 1021) := by norm_num
      rw [e]; gcongr)
    (fun k => le_trans (by have := hlarge k; linarith) hΩ) M
    (le_trans (by linarith) hΩ) hvals obs m hobs
  rwa [binary64_u, binary64_η] at this

/-- C92, `f32`. -/
theorem C92_interpn_f32 (fma lin : Bool) (atol : F32) (h1 : 1 ≤ N) (h8 : N ≤ 8)
    (κ : ℚ) (hκ : 0 ≤ κ) (hN : 110 * N * (1 + κ) ≤ 2 ^ 24)
    (grids : Fin N → List F32) (vals : List F32)
    (hG : (Axes.rectilinear fun k => (grids k).map val).Valid 2 (vals.map val))
    (hgrid : ∀ k, ∀ a ∈ grids k, Finite a ∧
      |val a| ≤ κ * (((grids k).map val).getD 1 0 - ((grids k).map val).getD 0 0))
    (hnormal : ∀ k, 1 / 2 ^ 125 ≤ ((grids k).map val).getD 1 0 - ((grids k).map val).getD 0 0)
    (hlarge : ∀ k, κ * (((grids k).map val).getD 1 0 - ((grids k).map val).getD 0 0) ≤ 2 ^ 124)
    (M : ℚ) (hM : M ≤ 2 ^ 124) (hvals : ∀ v ∈ vals, Finite v ∧ |val v| ≤ M)
    (obs : Fin N → List F32) (m : Nat)
    (hobs : ∀ k, (obs k).length = m ∧ ∀ a ∈ obs k, Finite a ∧
      InRange (grids k).length (fun i => ((grids k).map val).getD i 0) (val a)) :
    ∃ reg res, pyInterpn fma .float32 (List.ofFn obs) (List.ofFn grids) vals "linear" none lin false
        false atol = .ok (⟨"linear", reg, .float32⟩, res) ∧
      (reg = true ↔ ∀ k, UniformSpacing (grids k)) ∧ res.length = m ∧
      ∀ i pt, PointAt obs i pt → ∃ r y, res[i]? = some r ∧ Finite r ∧
        multilinearAt .flat false (.rectilinear fun k => (grids k).map val) (vals.map val)
          (fun k => val (pt k)) = .ok y ∧
        |val r - y| ≤ 110 * N * (1 + κ) * (1 / 2 ^ 24) * M + 3 * N * (1 / 2 ^ 150) := by
  have hΩ := binary32_Ω
  have := interpn_linear_ieee (f := Format.binary32)
    (by rw [binary32_u, binary32_η]; norm_num) (le_trans (by norm_num) hΩ) (by decide)
    (by rw [binary32_u]; norm_num) fma .float32 (by decide) lin atol h1 h8 κ hκ
    (by rw [binary32_u]; linarith) grids vals hG hgrid
    (fun k => by
      rw [binary32_u, binary32_η]
      have := hnormal k
      have e : 2 * ((1 : ℚ) / 2 ^ 150) = 1 / 2 ^ 24 * (1 / 2 ^ 125) := by norm_num
      rw [e]; gcongr)
    (fun k => le_trans (by have := hlarge k; linarith) hΩ) M
    (le_trans (by linarith) hΩ) hvals obs m hobs
  rwa [binary32_u, binary32_η] at this

end

/-! ### Concrete cases -/

/-- The grid that `numpy.linspace(0, 1, 11)` computes, `[i * 0.1 for i in range(11)]`. -/
def linspace01 : List F64 :=
  (List.range 11).map fun i => q64 i *. q64 (1 / 10)

/-- It is not recognised as regular: `0.3 - 0.2` and `0.1 - 0.0` differ in the last digits. -/
theorem C92_linspace_not_detected : ¬ UniformSpacing linspace01 := by
  intro h
  have := h 2 (by decide +kernel) (by decide +kernel)
  revert this
  decide +kernel

/-- A grid that passes the check although its exact spacings differ: -1, 2^-60, 1. -/
def almostUniform : List F64 := [q64 (-1), q64 (1 / 2 ^ 60), q64 1]

theorem uniform_of_check {g : List F64}
    (h : ∀ i < g.length - 1, feq (g.getD (i + 1) zero -. g.getD i zero)
      (g.getD 1 zero -. g.getD 0 zero) = true) : UniformSpacing g := by
  intro i hi h1
  have := h i (by omega)
  rw [List.getD_eq_getElem _ _ hi, List.getD_eq_getElem _ _ (by omega : i < g.length),
    List.getD_eq_getElem _ _ h1, List.getD_eq_getElem _ _ (by omega : 0 < g.length)] at this
  simpa [feq] using this

theorem almostUniform_passes : UniformSpacing almostUniform := uniform_of_check (by decide +kernel)

/-- Hypotheses of `C92_detected` are satisfied: node 1 is not exactly -1 + 1. -/
example : val almostUniform[1] ≠ val almostUniform[0] + 1 * val (almostUniform[1] -. almostUniform[0]) ∧
    |val almostUniform[1] - (val almostUniform[0] +
      (1 : Nat) * val (almostUniform[1] -. almostUniform[0]))| ≤
        2 * (1 : Nat) * Format.binary64.unitRoundoff *
          |val (almostUniform[1] -. almostUniform[0])| :=
  ⟨by decide +kernel, (C92_detected (by rw [binary64_u]; norm_num) almostUniform
    (by decide +kernel) (by decide) almostUniform_passes 1 (by decide)).2⟩

/-- Hypotheses of `C92_interpn_f64` are satisfied by two grids that pass the check; the regular
routine is used, and the results are accurate for the grids as given. -/
example : ∃ res, pyInterpn true .float64 [[q64 (1 / 3), q64 (1 / 2 ^ 60)], [q64 (5 / 3), q64 1]]
      [almostUniform, [q64 1, q64 3]] exVals64 "linear" none false false false (q64 0) =
        .ok (⟨"linear", true, .float64⟩, res) ∧
    ∃ r y, res[1]? = some r ∧ multilinearAt .flat false
        (.rectilinear ![almostUniform.map val, [q64 1, q64 3].map val]) (exVals64.map val)
        ![val (q64 (1 / 2 ^ 60)), val (q64 1)] = .ok y ∧ |val r - y| ≤ 1 / 10 ^ 11 := by
  obtain ⟨reg, res, h1, h2, -, h4⟩ := C92_interpn_f64 (N := 2) true false (q64 0) (by decide)
    (by decide) 2 (by norm_num) (by norm_num) ![almostUniform, [q64 1, q64 3]] exVals64
    (valid_of_check (by decide +kernel)) (by decide +kernel) (by decide +kernel) (by decide +kernel)
    16 (by norm_num) (by decide +kernel) ![[q64 (1 / 3), q64 (1 / 2 ^ 60)], [q64 (5 / 3), q64 1]] 2
    (by unfold InRange; decide +kernel)
  have hreg : reg = true := h2.2 fun k => by
    match k with
    | 0 => exact almostUniform_passes
    | 1 => exact uniform_of_check (by decide +kernel)
  subst hreg
  obtain ⟨r, y, a, -, b, c⟩ := h4 1 ![q64 (1 / 2 ^ 60), q64 1] (fun k => by
    match k with
    | 0 => rfl
    | 1 => rfl)
  refine ⟨res, h1, r, y, a, ?_, c.trans (by norm_num)⟩
  have e1 : (fun k => (![almostUniform, [q64 1, q64 3]] k).map val) =
      ![almostUniform.map val, [q64 1, q64 3].map val] := by
    funext k; match k with
    | 0 => rfl
    | 1 => rfl
  have e2 : (fun k => val (![q64 (1 / 2 ^ 60), q64 1] k)) = ![val (q64 (1 / 2 ^ 60)), val (q64 1)] := by
    funext k; match k with
    | 0 => rfl
    | 1 => rfl
  rw [← e1, ← e2]
  exact b

/-- The rectilinear routine is used on `linspace(0, 1, 11)`. -/
example : ∃ res, pyInterpn false .float64 [[q64 (1 / 3), q64 (9 / 10)]] [linspace01]
      ((List.range 11).map fun i => q64 i) "linear" none false false false (q64 0) =
        .ok (⟨"linear", false, .float64⟩, res) ∧ res.length = 2 := by
  obtain ⟨reg, res, h1, h2, h3, -⟩ := C92_interpn_f64 (N := 1) false false (q64 0) (by decide)
    (by decide) 11 (by norm_num) (by norm_num) ![linspace01] ((List.range 11).map fun i => q64 i)
    (valid_of_check (by decide +kernel)) (by decide +kernel) (by decide +kernel) (by decide +kernel)
    10 (by norm_num) (by decide +kernel) ![[q64 (1 / 3), q64 (9 / 10)]] 2
    (by unfold InRange; decide +kernel)
  have hreg : reg = false := by
    cases reg
    · rfl
    · exact absurd (h2.1 rfl 0) C92_linspace_not_detected
  subst hreg
  exact ⟨res, h1, h3⟩

/-- Hypotheses of `C92_interpn_f32` are satisfied. -/
example : ∃ reg res, pyInterpn false .float32 [[q32 (1 / 3)], [q32 (5 / 3)]]
      [[q32 0, q32 1, q32 2], [q32 1, q32 3]] exVals32 "linear" none false false false (q32 0) =
        .ok (⟨"linear", reg, .float32⟩, res) ∧ res.length = 1 := by
  obtain ⟨reg, res, h1, -, h3, -⟩ := C92_interpn_f32 (N := 2) false false (q32 0) (by decide)
    (by decide) 3 (by norm_num) (by norm_num) ![[q32 0, q32 1, q32 2], [q32 1, q32 3]] exVals32
    (valid_of_check (by decide +kernel)) (by decide +kernel) (by decide +kernel) (by decide +kernel)
    16 (by norm_num) (by decide +kernel) ![[q32 (1 / 3)], [q32 (5 / 3)]] 1
    (by unfold InRange; decide +kernel)
  exact ⟨reg, res, h1, h3⟩

end Interpn
