import Verif.Props.CubicMonotone
import Verif.Props.OneDimExact
import Verif.Props.Linearity
import Verif.Props.IeeeCubic
import Verif.Props.Smooth

/-! C134 for tables of one dimension: in terms of the table, in exact arithmetic and in `f64` and
`f32`. -/

set_option autoImplicit false
set_option linter.unusedSectionVars false
set_option exponentiation.threshold 1100

namespace Interpn
open Ieee

section
variable {K : Type} [Field K] [LinearOrder K] [IsStrictOrderedRing K] [FloorRing K]

/-- In one dimension the results at the nodes are the table. -/
theorem table_line (e : Evaluator) (he : e.Fits 1) (fma : Bool) (G : Axes K 1) (vals : List K)
    (lin : Bool) (hG : G.Valid 4 vals) :
    ∃ F : K → K, (∀ z, G.RepresentableCubic (fun _ => z) →
        multicubicAt e fma G vals lin (fun _ => z) = .ok (F z)) ∧
      ∀ i < G.size 0, F (G.node 0 i) = vals.getD i 0 := by
  have hn : 2 ≤ G.size 0 := le_trans (by omega) (hG.big 0)
  have hcell := fun z => exists_inCell (p := G.node 0) hn z
  choose c hc using hcell
  refine ⟨fun z => cubicPiece (G.size 0) (G.node 0) (fun i => vals.getD i 0) lin (c z) z,
    fun z hz => ?_, fun i hi => cubicPiece_node (hG.incr 0) _ lin hi (hc _)⟩
  rw [multicubicAt_eq e he fma G vals lin hG _ (getD_samples (hG.mono (by decide))) _ hz (fun _ => c z)
    (fun k => by rw [Subsingleton.elim k 0]; exact hc z), axisByAxis_one _ fun i => vals.getD i 0]

theorem update_one (z w : K) (j : Fin 1) : Function.update (fun _ : Fin 1 => w) j z = fun _ => z := by
  funext k
  rw [Subsingleton.elim k j, Function.update_self]

/-- C134 for a table of one dimension: the slopes `s` between its entries decide. -/
theorem C134_table (e : Evaluator) (he : e.Fits 1) (fma : Bool) (G : Axes K 1) (vals : List K)
    (lin : Bool) (hG : G.Valid 4 vals) (s : Nat → K)
    (hs : ∀ i, i + 1 < G.size 0 →
      vals.getD (i + 1) 0 - vals.getD i 0 = s i * (G.node 0 (i + 1) - G.node 0 i))
    (h0 : ∀ i, i + 1 < G.size 0 → 0 ≤ s i)
    (h3 : ∀ i, i + 2 < G.size 0 → s i ≤ 3 * s (i + 1) ∧ s (i + 1) ≤ 3 * s i)
    (hfirst : s 1 ≤ 2 * s 0) (hlast : s (G.size 0 - 3) ≤ 2 * s (G.size 0 - 2))
    (z z' : K) (hzz : z ≤ z') (hz : G.RepresentableCubic fun _ => z)
    (hz' : G.RepresentableCubic fun _ => z')
    (hin : lin = true ∨ G.node 0 0 ≤ z ∧ z' ≤ G.node 0 (G.size 0 - 1)) :
    ∃ y y', multicubicAt e fma G vals lin (fun _ => z) = .ok y ∧
      multicubicAt e fma G vals lin (fun _ => z') = .ok y' ∧ y ≤ y' := by
  obtain ⟨F, hF, hnode⟩ := table_line e he fma G vals lin hG
  refine ⟨_, _, hF z hz, hF z' hz', ?_⟩
  refine C134_monotone e he fma G vals lin hG (fun _ => z) hz 0 F
    (fun w hw => by rw [update_one] at hw ⊢; exact hF w hw) s (fun i hi => ?_) h0 h3 hfirst hlast z z' hzz
    (by rw [update_one]; exact hz) (by rw [update_one]; exact hz') hin
  rw [hnode _ hi, hnode _ (by omega), hs i hi]

/-- C134 for a table of one dimension on a regular grid: its increments decide. -/
theorem C134_table_regular (e : Evaluator) (he : e.Fits 1) (fma : Bool) (dims : Fin 1 → Nat)
    (starts steps : Fin 1 → K) (vals : List K) (lin : Bool)
    (hG : (Axes.regular dims starts steps).Valid 4 vals)
    (h0 : ∀ i, i + 1 < dims 0 → vals.getD i 0 ≤ vals.getD (i + 1) 0)
    (h5 : ∀ i, i + 2 < dims 0 →
      vals.getD (i + 1) 0 - vals.getD i 0 ≤ 5 * (vals.getD (i + 2) 0 - vals.getD (i + 1) 0) ∧
      vals.getD (i + 2) 0 - vals.getD (i + 1) 0 ≤ 5 * (vals.getD (i + 1) 0 - vals.getD i 0))
    (hfirst : vals.getD 2 0 - vals.getD 1 0 ≤ 3 * (vals.getD 1 0 - vals.getD 0 0))
    (hlast : vals.getD (dims 0 - 2) 0 - vals.getD (dims 0 - 3) 0 ≤
      3 * (vals.getD (dims 0 - 1) 0 - vals.getD (dims 0 - 2) 0))
    (z z' : K) (hzz : z ≤ z') (hz : (Axes.regular dims starts steps).RepresentableCubic fun _ => z)
    (hz' : (Axes.regular dims starts steps).RepresentableCubic fun _ => z')
    (hin : lin = true ∨ starts 0 ≤ z ∧ z' ≤ starts 0 + steps 0 * (dims 0 - 1 : Nat)) :
    ∃ y y', multicubicAt e fma (.regular dims starts steps) vals lin (fun _ => z) = .ok y ∧
      multicubicAt e fma (.regular dims starts steps) vals lin (fun _ => z') = .ok y' ∧ y ≤ y' := by
  obtain ⟨F, hF, hnode⟩ := table_line e he fma (.regular dims starts steps) vals lin hG
  have hn : 4 ≤ dims 0 := hG.big 0
  have hnode' : ∀ i < dims 0, F (starts 0 + steps 0 * (i : K)) = vals.getD i 0 := hnode
  refine ⟨_, _, hF z hz, hF z' hz', ?_⟩
  refine C134_monotone_regular e he fma dims starts steps vals lin hG (fun _ => z) hz 0 F
    (fun w hw => by rw [update_one] at hw ⊢; exact hF w hw)
    (fun i => vals.getD (i + 1) 0 - vals.getD i 0) (fun i hi => ?_) (fun i hi => sub_nonneg.2 (h0 i hi))
    h5 hfirst ?_ z z' hzz (by rw [update_one]; exact hz) (by rw [update_one]; exact hz') hin
  · rw [hnode' _ hi, hnode' _ (by omega)]
  · have e1 : dims 0 - 3 + 1 = dims 0 - 2 := by omega
    have e2 : dims 0 - 2 + 1 = dims 0 - 1 := by omega
    simp only [e1, e2]
    exact hlast

end

section

/-- Two computed results whose exact counterparts are in order. -/
theorem ordered_float {f : Format} {a b : Res (Ieee f)} {A B : Res ℚ} {E : ℚ}
    (ha : ∃ r y, a = .ok r ∧ Finite r ∧ A = .ok y ∧ |val r - y| ≤ E)
    (hb : ∃ r y, b = .ok r ∧ Finite r ∧ B = .ok y ∧ |val r - y| ≤ E)
    (h : ∃ y z, A = .ok y ∧ B = .ok z ∧ y ≤ z) :
    ∃ r s, a = .ok r ∧ b = .ok s ∧ Finite r ∧ Finite s ∧ val r ≤ val s + 2 * E := by
  obtain ⟨r, y, h1, h2, h3, h4⟩ := ha
  obtain ⟨s, z, k1, k2, k3, k4⟩ := hb
  obtain ⟨y', z', e1, e2, e3⟩ := h
  rw [h3] at e1
  rw [k3] at e2
  cases e1
  cases e2
  refine ⟨r, s, h1, k1, h2, k2, ?_⟩
  rw [abs_le] at *
  linarith [h4.1, h4.2, k4.1, k4.2]

/-- C134 in `f64`, rectilinear grid of one dimension: results decrease by rounding errors only. -/
theorem C134_rectilinear_f64 (e : Evaluator) (he : e.Fits 1) (fma : Bool) (grid : List F64)
    (vals : List F64) (lin : Bool)
    (hG : (Axes.rectilinear fun _ : Fin 1 => grid.map val).Valid 4 (vals.map val))
    (hgrid : ∀ a ∈ grid, Finite a ∧ |val a| ≤ 2 ^ 1022)
    (M : ℚ) (hM : M ≤ 2 ^ 700) (hM1 : 1 / 2 ^ 1022 ≤ M) (hvals : ∀ v ∈ vals, Finite v ∧ |val v| ≤ M)
    (ρ : ℚ) (hρ : 1 ≤ ρ) (hρ2 : ρ ≤ 2 ^ 30)
    (hmesh : MeshRatio grid.length (fun i => (grid.map val).getD i 0) ρ) (s : Nat → ℚ)
    (hs : ∀ i, i + 1 < grid.length → (vals.map val).getD (i + 1) 0 - (vals.map val).getD i 0 =
      s i * ((grid.map val).getD (i + 1) 0 - (grid.map val).getD i 0))
    (h0 : ∀ i, i + 1 < grid.length → 0 ≤ s i)
    (h3 : ∀ i, i + 2 < grid.length → s i ≤ 3 * s (i + 1) ∧ s (i + 1) ≤ 3 * s i)
    (hfirst : s 1 ≤ 2 * s 0) (hlast : s (grid.length - 3) ≤ 2 * s (grid.length - 2))
    (z z' : F64) (hfz : Finite z) (hfz' : Finite z') (hzz : val z ≤ val z')
    (hz : InRange grid.length (fun i => (grid.map val).getD i 0) (val z))
    (hz' : InRange grid.length (fun i => (grid.map val).getD i 0) (val z')) :
    ∃ r r', multicubicRectilinearAt (N := 1) e fma (fun _ => grid) vals lin (fun _ => z) = .ok r ∧
      multicubicRectilinearAt (N := 1) e fma (fun _ => grid) vals lin (fun _ => z') = .ok r' ∧
      Finite r ∧ Finite r' ∧ val r ≤ val r' +
        2 * (3200 * (1 : Nat) * ρ * (1 / 2 ^ 53) * (1 + ρ ^ 2 / (2 * (1 + ρ))) ^ 1 * M) := by
  have hsz : (Axes.rectilinear fun _ : Fin 1 => grid.map val : Axes ℚ 1).size 0 = grid.length := by
    simp [Axes.size]
  have acc := fun (w : F64) (hw : Finite w)
      (hin : InRange grid.length (fun i => (grid.map val).getD i 0) (val w)) =>
    C82_rectilinear_f64 (N := 1) e he (by decide) fma (fun _ => grid) vals lin hG (fun _ => hgrid) M hM
      hM1 hvals (fun _ => w) (fun _ => hw) (fun _ => hin) ρ hρ hρ2 (fun _ => hmesh)
  refine ordered_float (acc z hfz hz) (acc z' hfz' hz') ?_
  exact C134_table e he fma _ _ lin hG s (by rw [hsz]; exact hs) (by rw [hsz]; exact h0)
    (by rw [hsz]; exact h3) hfirst (by rw [hsz]; exact hlast) _ _ hzz trivial trivial
    (.inr (by rw [hsz]; exact ⟨hz.1, hz'.2⟩))

/-- C134 in `f32`, rectilinear grid of one dimension: results decrease by rounding errors only. -/
theorem C134_rectilinear_f32 (e : Evaluator) (he : e.Fits 1) (fma : Bool) (grid : List F32)
    (vals : List F32) (lin : Bool)
    (hG : (Axes.rectilinear fun _ : Fin 1 => grid.map val).Valid 4 (vals.map val))
    (hgrid : ∀ a ∈ grid, Finite a ∧ |val a| ≤ 2 ^ 126)
    (M : ℚ) (hM : M ≤ 2 ^ 40) (hM1 : 1 / 2 ^ 126 ≤ M) (hvals : ∀ v ∈ vals, Finite v ∧ |val v| ≤ M)
    (ρ : ℚ) (hρ : 1 ≤ ρ) (hρ2 : ρ ≤ 2 ^ 9)
    (hmesh : MeshRatio grid.length (fun i => (grid.map val).getD i 0) ρ) (s : Nat → ℚ)
    (hs : ∀ i, i + 1 < grid.length → (vals.map val).getD (i + 1) 0 - (vals.map val).getD i 0 =
      s i * ((grid.map val).getD (i + 1) 0 - (grid.map val).getD i 0))
    (h0 : ∀ i, i + 1 < grid.length → 0 ≤ s i)
    (h3 : ∀ i, i + 2 < grid.length → s i ≤ 3 * s (i + 1) ∧ s (i + 1) ≤ 3 * s i)
    (hfirst : s 1 ≤ 2 * s 0) (hlast : s (grid.length - 3) ≤ 2 * s (grid.length - 2))
    (z z' : F32) (hfz : Finite z) (hfz' : Finite z') (hzz : val z ≤ val z')
    (hz : InRange grid.length (fun i => (grid.map val).getD i 0) (val z))
    (hz' : InRange grid.length (fun i => (grid.map val).getD i 0) (val z')) :
    ∃ r r', multicubicRectilinearAt (N := 1) e fma (fun _ => grid) vals lin (fun _ => z) = .ok r ∧
      multicubicRectilinearAt (N := 1) e fma (fun _ => grid) vals lin (fun _ => z') = .ok r' ∧
      Finite r ∧ Finite r' ∧ val r ≤ val r' +
        2 * (3200 * (1 : Nat) * ρ * (1 / 2 ^ 24) * (1 + ρ ^ 2 / (2 * (1 + ρ))) ^ 1 * M) := by
  have hsz : (Axes.rectilinear fun _ : Fin 1 => grid.map val : Axes ℚ 1).size 0 = grid.length := by
    simp [Axes.size]
  have acc := fun (w : F32) (hw : Finite w)
      (hin : InRange grid.length (fun i => (grid.map val).getD i 0) (val w)) =>
    C82_rectilinear_f32 (N := 1) e he (by decide) fma (fun _ => grid) vals lin hG (fun _ => hgrid) M hM
      hM1 hvals (fun _ => w) (fun _ => hw) (fun _ => hin) ρ hρ hρ2 (fun _ => hmesh)
  refine ordered_float (acc z hfz hz) (acc z' hfz' hz') ?_
  exact C134_table e he fma _ _ lin hG s (by rw [hsz]; exact hs) (by rw [hsz]; exact h0)
    (by rw [hsz]; exact h3) hfirst (by rw [hsz]; exact hlast) _ _ hzz trivial trivial
    (.inr (by rw [hsz]; exact ⟨hz.1, hz'.2⟩))

/-- C134 in `f64`, regular grid of one dimension. -/
theorem C134_regular_f64 (e : Evaluator) (he : e.Fits 1) (fma : Bool) (κ : ℚ) (hκ : 0 ≤ κ)
    (hN : 4200 * (1 + κ) ≤ 2 ^ 53) (dim : Nat) (start step : F64) (vals : List F64) (lin : Bool)
    (hG : (Axes.regular (fun _ : Fin 1 => dim) (fun _ => val start) fun _ => val step).Valid 4
      (vals.map val))
    (hfin : Finite start ∧ Finite step) (hnormal : 1 / 2 ^ 1022 ≤ val step)
    (hnodes : |val start| ≤ κ * val step ∧
      |val start + val step * ((dim - 1 : Nat) : ℚ)| ≤ κ * val step)
    (hlarge : κ * val step ≤ 2 ^ 1020) (M : ℚ) (hM : M ≤ 2 ^ 1000) (hM1 : 1 / 2 ^ 1022 ≤ M)
    (hvals : ∀ v ∈ vals, Finite v ∧ |val v| ≤ M) (y : Nat → ℚ) (hy : ∀ i, y i = (vals.map val).getD i 0)
    (h0 : ∀ i, i + 1 < dim → y i ≤ y (i + 1))
    (h5 : ∀ i, i + 2 < dim → y (i + 1) - y i ≤ 5 * (y (i + 2) - y (i + 1)) ∧
      y (i + 2) - y (i + 1) ≤ 5 * (y (i + 1) - y i))
    (hfirst : y 2 - y 1 ≤ 3 * (y 1 - y 0))
    (hlast : y (dim - 2) - y (dim - 3) ≤ 3 * (y (dim - 1) - y (dim - 2)))
    (z z' : F64) (hfz : Finite z) (hfz' : Finite z') (hzz : val z ≤ val z')
    (hz : InRange dim (fun i => val start + val step * (i : ℚ)) (val z))
    (hz' : InRange dim (fun i => val start + val step * (i : ℚ)) (val z')) :
    ∃ r r', multicubicRegularAt (N := 1) e fma (fun _ => dim) (fun _ => start) (fun _ => step) vals lin
        (fun _ => z) = .ok r ∧
      multicubicRegularAt (N := 1) e fma (fun _ => dim) (fun _ => start) (fun _ => step) vals lin
        (fun _ => z') = .ok r' ∧
      Finite r ∧ Finite r' ∧
      val r ≤ val r' + 2 * (4200 * (1 : Nat) * (1 + κ) * (1 / 2 ^ 53) * (5 / 4) ^ 1 * M) := by
  have acc := fun (w : F64) (hw : Finite w)
      (hin : InRange dim (fun i => val start + val step * (i : ℚ)) (val w)) =>
    C82_regular_f64 (N := 1) e he (by decide) fma κ hκ (by simpa using hN) (fun _ => dim) (fun _ => start)
      (fun _ => step) vals lin hG (fun _ => hfin) (fun _ => hnormal) (fun _ => hnodes) (fun _ => hlarge) M
      hM hM1 hvals (fun _ => w) (fun _ => hw) (fun _ => hin)
  obtain rfl : y = fun i => (vals.map val).getD i 0 := funext hy
  refine ordered_float (acc z hfz hz) (acc z' hfz' hz') ?_
  refine C134_table_regular e he fma _ _ _ _ lin hG h0 h5 hfirst hlast _ _ hzz
    (hG.inRange_fits (by decide) (fun _ => hz) _ (by decide))
    (hG.inRange_fits (by decide) (fun _ => hz') _ (by decide)) (.inr ⟨?_, hz'.2⟩)
  have := hz.1
  simpa using this

/-- C134 in `f32`, regular grid of one dimension. -/
theorem C134_regular_f32 (e : Evaluator) (he : e.Fits 1) (fma : Bool) (κ : ℚ) (hκ : 0 ≤ κ)
    (hN : 4200 * (1 + κ) ≤ 2 ^ 24) (dim : Nat) (start step : F32) (vals : List F32) (lin : Bool)
    (hG : (Axes.regular (fun _ : Fin 1 => dim) (fun _ => val start) fun _ => val step).Valid 4
      (vals.map val))
    (hfin : Finite start ∧ Finite step) (hnormal : 1 / 2 ^ 126 ≤ val step)
    (hnodes : |val start| ≤ κ * val step ∧
      |val start + val step * ((dim - 1 : Nat) : ℚ)| ≤ κ * val step)
    (hlarge : κ * val step ≤ 2 ^ 124) (M : ℚ) (hM : M ≤ 2 ^ 110) (hM1 : 1 / 2 ^ 126 ≤ M)
    (hvals : ∀ v ∈ vals, Finite v ∧ |val v| ≤ M) (y : Nat → ℚ) (hy : ∀ i, y i = (vals.map val).getD i 0)
    (h0 : ∀ i, i + 1 < dim → y i ≤ y (i + 1))
    (h5 : ∀ i, i + 2 < dim → y (i + 1) - y i ≤ 5 * (y (i + 2) - y (i + 1)) ∧
      y (i + 2) - y (i + 1) ≤ 5 * (y (i + 1) - y i))
    (hfirst : y 2 - y 1 ≤ 3 * (y 1 - y 0))
    (hlast : y (dim - 2) - y (dim - 3) ≤ 3 * (y (dim - 1) - y (dim - 2)))
    (z z' : F32) (hfz : Finite z) (hfz' : Finite z') (hzz : val z ≤ val z')
    (hz : InRange dim (fun i => val start + val step * (i : ℚ)) (val z))
    (hz' : InRange dim (fun i => val start + val step * (i : ℚ)) (val z')) :
    ∃ r r', multicubicRegularAt (N := 1) e fma (fun _ => dim) (fun _ => start) (fun _ => step) vals lin
        (fun _ => z) = .ok r ∧
      multicubicRegularAt (N := 1) e fma (fun _ => dim) (fun _ => start) (fun _ => step) vals lin
        (fun _ => z') = .ok r' ∧
      Finite r ∧ Finite r' ∧
      val r ≤ val r' + 2 * (4200 * (1 : Nat) * (1 + κ) * (1 / 2 ^ 24) * (5 / 4) ^ 1 * M) := by
  have acc := fun (w : F32) (hw : Finite w)
      (hin : InRange dim (fun i => val start + val step * (i : ℚ)) (val w)) =>
    C82_regular_f32 (N := 1) e he (by decide) fma κ hκ (by simpa using hN) (fun _ => dim) (fun _ => start)
      (fun _ => step) vals lin hG (fun _ => hfin) (fun _ => hnormal) (fun _ => hnodes) (fun _ => hlarge) M
      hM hM1 hvals (fun _ => w) (fun _ => hw) (fun _ => hin)
  obtain rfl : y = fun i => (vals.map val).getD i 0 := funext hy
  refine ordered_float (acc z hfz hz) (acc z' hfz' hz') ?_
  refine C134_table_regular e he fma _ _ _ _ lin hG h0 h5 hfirst hlast _ _ hzz
    (hG.inRange_fits (by decide) (fun _ => hz) _ (by decide))
    (hG.inRange_fits (by decide) (fun _ => hz') _ (by decide)) (.inr ⟨?_, hz'.2⟩)
  have := hz.1
  simpa using this

end

section Examples

section
attribute [local instance] ratOps

/-- Slopes `1, 3/2, 1`, and increments `1, 3, 1`, in exact arithmetic. -/
example (z z' : ℚ) (hzz : z ≤ z') :
    ∃ y y', multicubicAt .flat false (.rectilinear fun _ : Fin 1 => [0, 1, 3, 4]) [0, 1, 4, 5] true
        (fun _ => z) = .ok y ∧
      multicubicAt .flat false (.rectilinear fun _ : Fin 1 => [0, 1, 3, 4]) [0, 1, 4, 5] true
        (fun _ => z') = .ok y' ∧ y ≤ y' :=
  C134_table (K := ℚ) .flat Nat.one_pos false _ _ true (valid_of_check (by decide +kernel))
    (fun i => if i = 1 then 3 / 2 else 1)
    (by
      intro i hi
      replace hi : i + 1 < 4 := hi
      have : i < 3 := by omega
      clear hzz
      interval_cases i <;> decide +kernel)
    (by intro i _; split <;> norm_num)
    (by
      intro i hi
      replace hi : i + 2 < 4 := hi
      have : i < 2 := by omega
      interval_cases i <;> norm_num)
    (by norm_num) (by decide +kernel) z z' hzz trivial trivial (.inl rfl)

example (z z' : ℚ) (hzz : z ≤ z') (h0 : 0 ≤ z) (h1 : z' ≤ 3) :
    ∃ y y', multicubicAt .flat false (.regular (fun _ : Fin 1 => 4) (fun _ => 0) fun _ => 1) [0, 1, 4, 5]
        false (fun _ => z) = .ok y ∧
      multicubicAt .flat false (.regular (fun _ : Fin 1 => 4) (fun _ => 0) fun _ => 1) [0, 1, 4, 5]
        false (fun _ => z') = .ok y' ∧ y ≤ y' := by
  have hG : (Axes.regular (fun _ : Fin 1 => 4) (fun _ => (0 : ℚ)) fun _ => 1).Valid 4 [0, 1, 4, 5] :=
    valid_of_check (by decide +kernel)
  have fit : ∀ w : ℚ, 0 ≤ w → w ≤ 3 →
      (Axes.regular (fun _ : Fin 1 => 4) (fun _ => (0 : ℚ)) fun _ => 1).RepresentableCubic fun _ => w :=
    fun w a b => hG.inRange_fits (by decide)
      (fun _ => by
        show 0 + 1 * ((0 : Nat) : ℚ) ≤ w ∧ w ≤ 0 + 1 * ((3 : Nat) : ℚ)
        constructor <;> push_cast <;> linarith) _ (by decide)
  refine C134_table_regular (K := ℚ) .flat Nat.one_pos false _ _ _ _ false hG
    (by
      intro i hi
      have : i < 3 := by omega
      clear hzz h0 h1
      interval_cases i <;> decide +kernel)
    (by
      intro i hi
      have : i < 2 := by omega
      clear hzz h0 h1
      interval_cases i <;> decide +kernel)
    (by decide +kernel) (by decide +kernel) z z' hzz (fit z h0 (hzz.trans h1)) (fit z' (h0.trans hzz) h1)
    (.inr ⟨h0, by show z' ≤ 0 + 1 * ((3 : Nat) : ℚ); push_cast; linarith⟩)

end

/-- A table with slopes `1, 3/2, 1` on a grid of ratio two, `f64`. -/
example (z z' : F64) (hfz : Finite z) (hfz' : Finite z') (hzz : val z ≤ val z')
    (hz : InRange 4 (fun i => ([q64 0, q64 1, q64 3, q64 4].map val).getD i 0) (val z))
    (hz' : InRange 4 (fun i => ([q64 0, q64 1, q64 3, q64 4].map val).getD i 0) (val z')) :
    ∃ r r', multicubicRectilinearAt (N := 1) .flat false (fun _ => [q64 0, q64 1, q64 3, q64 4])
        [q64 0, q64 1, q64 4, q64 5] true (fun _ => z) = .ok r ∧
      multicubicRectilinearAt (N := 1) .flat false (fun _ => [q64 0, q64 1, q64 3, q64 4])
        [q64 0, q64 1, q64 4, q64 5] true (fun _ => z') = .ok r' ∧
      Finite r ∧ Finite r' ∧ val r ≤ val r' + 1 / 10 ^ 10 := by
  obtain ⟨r, r', h1, h2, h3, h4, h5⟩ := C134_rectilinear_f64 .flat Nat.one_pos false [q64 0, q64 1, q64 3, q64 4]
    [q64 0, q64 1, q64 4, q64 5] true (valid_of_check (by decide +kernel)) (by decide +kernel) 5
    (by norm_num) (by norm_num) (by decide +kernel) 2 (by norm_num) (by norm_num)
    (by
      intro i hi
      replace hi : i + 2 < 4 := hi
      have : i < 2 := by omega
      clear hz hz' hzz hfz hfz'
      interval_cases i <;> constructor <;> decide +kernel)
    (fun i => if i = 1 then 3 / 2 else 1)
    (by
      intro i hi
      replace hi : i + 1 < 4 := hi
      have : i < 3 := by omega
      clear hz hz' hzz hfz hfz'
      interval_cases i <;> decide +kernel)
    (by intro i _; split <;> norm_num)
    (by
      intro i hi
      replace hi : i + 2 < 4 := hi
      have : i < 2 := by omega
      clear hz hz' hzz hfz hfz'
      interval_cases i <;> norm_num)
    (by norm_num) (by decide +kernel) z z' hfz hfz' hzz hz hz'
  refine ⟨r, r', h1, h2, h3, h4, h5.trans ?_⟩
  norm_num

/-- The increments `1, 3, 1` on a regular grid, `f64`. -/
example (z z' : F64) (hfz : Finite z) (hfz' : Finite z') (hzz : val z ≤ val z')
    (hz : InRange 4 (fun i => val (q64 0) + val (q64 (1 / 2)) * (i : ℚ)) (val z))
    (hz' : InRange 4 (fun i => val (q64 0) + val (q64 (1 / 2)) * (i : ℚ)) (val z')) :
    ∃ r r', multicubicRegularAt (N := 1) .flat false (fun _ => 4) (fun _ => q64 0) (fun _ => q64 (1 / 2))
        [q64 0, q64 1, q64 4, q64 5] true (fun _ => z) = .ok r ∧
      multicubicRegularAt (N := 1) .flat false (fun _ => 4) (fun _ => q64 0) (fun _ => q64 (1 / 2))
        [q64 0, q64 1, q64 4, q64 5] true (fun _ => z') = .ok r' ∧
      Finite r ∧ Finite r' ∧ val r ≤ val r' + 1 / 10 ^ 10 := by
  obtain ⟨r, r', h1, h2, h3, h4, h5⟩ := C134_regular_f64 .flat Nat.one_pos false 3 (by norm_num)
    (by norm_num) 4 (q64 0) (q64 (1 / 2)) [q64 0, q64 1, q64 4, q64 5] true
    (valid_of_check (by decide +kernel)) (by decide +kernel) (by decide +kernel) (by decide +kernel)
    (by decide +kernel) 5 (by norm_num) (by norm_num) (by decide +kernel) _ (fun _ => rfl)
    (by
      intro i hi
      have : i < 3 := by omega
      clear hz hz' hzz hfz hfz'
      interval_cases i <;> decide +kernel)
    (by
      intro i hi
      have : i < 2 := by omega
      clear hz hz' hzz hfz hfz'
      interval_cases i <;> decide +kernel)
    (by decide +kernel) (by decide +kernel) z z' hfz hfz' hzz hz hz'
  refine ⟨r, r', h1, h2, h3, h4, h5.trans ?_⟩
  norm_num

/-- A table with slopes `1, 3/2, 1` on a grid of ratio two, `f32`. -/
example (z z' : F32) (hfz : Finite z) (hfz' : Finite z') (hzz : val z ≤ val z')
    (hz : InRange 4 (fun i => ([q32 0, q32 1, q32 3, q32 4].map val).getD i 0) (val z))
    (hz' : InRange 4 (fun i => ([q32 0, q32 1, q32 3, q32 4].map val).getD i 0) (val z')) :
    ∃ r r', multicubicRectilinearAt (N := 1) .flat false (fun _ => [q32 0, q32 1, q32 3, q32 4])
        [q32 0, q32 1, q32 4, q32 5] true (fun _ => z) = .ok r ∧
      multicubicRectilinearAt (N := 1) .flat false (fun _ => [q32 0, q32 1, q32 3, q32 4])
        [q32 0, q32 1, q32 4, q32 5] true (fun _ => z') = .ok r' ∧
      Finite r ∧ Finite r' ∧ val r ≤ val r' + 1 / 10 := by
  obtain ⟨r, r', h1, h2, h3, h4, h5⟩ := C134_rectilinear_f32 .flat Nat.one_pos false [q32 0, q32 1, q32 3, q32 4]
    [q32 0, q32 1, q32 4, q32 5] true (valid_of_check (by decide +kernel)) (by decide +kernel) 5
    (by norm_num) (by norm_num) (by decide +kernel) 2 (by norm_num) (by norm_num)
    (by
      intro i hi
      replace hi : i + 2 < 4 := hi
      have : i < 2 := by omega
      clear hz hz' hzz hfz hfz'
      interval_cases i <;> constructor <;> decide +kernel)
    (fun i => if i = 1 then 3 / 2 else 1)
    (by
      intro i hi
      replace hi : i + 1 < 4 := hi
      have : i < 3 := by omega
      clear hz hz' hzz hfz hfz'
      interval_cases i <;> decide +kernel)
    (by intro i _; split <;> norm_num)
    (by
      intro i hi
      replace hi : i + 2 < 4 := hi
      have : i < 2 := by omega
      clear hz hz' hzz hfz hfz'
      interval_cases i <;> norm_num)
    (by norm_num) (by decide +kernel) z z' hfz hfz' hzz hz hz'
  refine ⟨r, r', h1, h2, h3, h4, h5.trans ?_⟩
  norm_num

/-- The increments `1, 3, 1` on a regular grid, `f32`. -/
example (z z' : F32) (hfz : Finite z) (hfz' : Finite z') (hzz : val z ≤ val z')
    (hz : InRange 4 (fun i => val (q32 0) + val (q32 (1 / 2)) * (i : ℚ)) (val z))
    (hz' : InRange 4 (fun i => val (q32 0) + val (q32 (1 / 2)) * (i : ℚ)) (val z')) :
    ∃ r r', multicubicRegularAt (N := 1) .flat false (fun _ => 4) (fun _ => q32 0) (fun _ => q32 (1 / 2))
        [q32 0, q32 1, q32 4, q32 5] true (fun _ => z) = .ok r ∧
      multicubicRegularAt (N := 1) .flat false (fun _ => 4) (fun _ => q32 0) (fun _ => q32 (1 / 2))
        [q32 0, q32 1, q32 4, q32 5] true (fun _ => z') = .ok r' ∧
      Finite r ∧ Finite r' ∧ val r ≤ val r' + 1 / 10 := by
  obtain ⟨r, r', h1, h2, h3, h4, h5⟩ := C134_regular_f32 .flat Nat.one_pos false 3 (by norm_num)
    (by norm_num) 4 (q32 0) (q32 (1 / 2)) [q32 0, q32 1, q32 4, q32 5] true
    (valid_of_check (by decide +kernel)) (by decide +kernel) (by decide +kernel) (by decide +kernel)
    (by decide +kernel) 5 (by norm_num) (by norm_num) (by decide +kernel) _ (fun _ => rfl)
    (by
      intro i hi
      have : i < 3 := by omega
      clear hz hz' hzz hfz hfz'
      interval_cases i <;> decide +kernel)
    (by
      intro i hi
      have : i < 2 := by omega
      clear hz hz' hzz hfz hfz'
      interval_cases i <;> decide +kernel)
    (by decide +kernel) (by decide +kernel) z z' hfz hfz' hzz hz hz'
  refine ⟨r, r', h1, h2, h3, h4, h5.trans ?_⟩
  norm_num

end Examples

end Interpn
