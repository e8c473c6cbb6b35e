import Verif.Props.Convergence
import Verif.Props.TotalError
import Verif.Props.IeeeNearest

/-! C138 in `f64` and `f32`: total error of tabulating a function that need not be smooth and
interpolating the table. -/

set_option autoImplicit false
set_option linter.unusedSectionVars false
set_option exponentiation.threshold 1100

namespace Interpn
open FloatOps Ieee

section
variable {N : Nat}

/-- In the box from the first to the last nodes, `F` changes by at most `ω` if variable `k` changes by
at most `δ k` for every `k`. -/
def VariesAtMost (dims : Fin N → Nat) (node : Fin N → Nat → ℚ) (F : (Fin N → ℝ) → ℝ) (δ : Fin N → ℝ)
    (ω : ℝ) : Prop :=
  ∀ y z : Fin N → ℝ, (∀ j, (node j 0 : ℝ) ≤ y j ∧ y j ≤ (node j (dims j - 1) : ℝ)) →
    (∀ j, (node j 0 : ℝ) ≤ z j ∧ z j ≤ (node j (dims j - 1) : ℝ)) →
    (∀ k, |y k - z k| ≤ δ k) → |F y - F z| ≤ ω

theorem node_box {G : Axes ℚ N} {m : Nat} {vals : List ℚ} (hG : G.Valid m vals) {k : Fin N} {i : Nat}
    (h : i < G.size k) :
    (G.node k 0 : ℝ) ≤ G.node k i ∧ (G.node k i : ℝ) ≤ G.node k (G.size k - 1) := by
  have h1 := (hG.incr k).le (i := 0) (j := i) (by omega) h
  have h2 := (hG.incr k).le (i := i) (j := G.size k - 1) (by omega) (by omega)
  exact ⟨by exact_mod_cast h1, by exact_mod_cast h2⟩

theorem range_box {n : Nat} {p : Nat → ℚ} {x : ℚ} (h : InRange n p x) :
    (p 0 : ℝ) ≤ x ∧ (x : ℝ) ≤ p (n - 1) := by
  unfold InRange at h
  exact ⟨by exact_mod_cast h.1, by exact_mod_cast h.2⟩

/-- The value at a node near the observation. -/
theorem near_node {G : Axes ℚ N} {m : Nat} {vals : List ℚ} (hG : G.Valid m vals)
    {F : (Fin N → ℝ) → ℝ} {δ : Fin N → ℝ} {ω ε v : ℝ} (hF : VariesAtMost G.size G.node F δ ω)
    {x : Fin N → ℚ} (hin : ∀ k, InRange (G.size k) (G.node k) (x k)) {loc : Fin N → Nat}
    (hl : ∀ k, loc k < G.size k) (hd : ∀ k, |(G.node k (loc k) : ℝ) - x k| ≤ δ k)
    (hv : |v - F fun k => (G.node k (loc k) : ℝ)| ≤ ε) :
    |v - F fun k => (x k : ℝ)| ≤ ω + ε := by
  have h1 := hF (fun k => (G.node k (loc k) : ℝ)) (fun k => (x k : ℝ)) (fun j => node_box hG (hl j))
    (fun j => range_box (hin j)) hd
  have := abs_sub_le v (F fun k => (G.node k (loc k) : ℝ)) (F fun k => (x k : ℝ))
  linarith

/-- A corner of the cell is not further than the cell is wide. -/
theorem corner_near {n : Nat} {p : Nat → ℚ} {x : ℚ} {c i : Nat} (hc : InCell n p x c)
    (hin : InRange n p x) {d : ℝ} (hw : (p (c + 1) : ℝ) - p c ≤ d) (hi : i = c ∨ i = c + 1) :
    |(p i : ℝ) - x| ≤ d := by
  obtain ⟨ha, hb⟩ := inRange_of_inCell hc hin
  have ha' : (p c : ℝ) ≤ x := by exact_mod_cast ha
  have hb' : (x : ℝ) ≤ p (c + 1) := by exact_mod_cast hb
  rw [abs_le]
  rcases hi with rfl | rfl <;> constructor <;> linarith

/-- A node that is nearest up to less than half a step is not further than a step. -/
theorem step_near {n c i : Nat} {s d x t : ℚ}
    (hc : InCell n (fun i => s + d * (i : ℚ)) x c) (hin : InRange n (fun i => s + d * (i : ℚ)) x)
    (ht : t ≤ d / 2) (h : NearestWithin n (fun i => s + d * (i : ℚ)) x t i) :
    |((s + d * (i : ℚ) : ℚ) : ℝ) - x| ≤ d := by
  obtain ⟨ha, hb⟩ := inRange_of_inCell hc hin
  have h1 := h.2 c (by have := hc.1; omega)
  have h2 := h.2 (c + 1) hc.1
  simp only [Nat.cast_add, Nat.cast_one] at ha hb h1 h2
  rw [abs_of_nonneg (a := x - (s + d * (c : ℚ))) (by linarith)] at h1
  rw [abs_of_nonpos (a := x - (s + d * ((c : ℚ) + 1))) (by linarith)] at h2
  have h3 : |s + d * (i : ℚ) - x| ≤ d := by rw [abs_sub_comm]; linarith
  exact_mod_cast h3

/-- Exact multilinear interpolation of an inexact table. -/
theorem linear_modulus (e : Evaluator) (he : e.Fits N) (fma : Bool) (G : Axes ℚ N) (vals : List ℚ)
    (hG : G.Valid 2 vals) (F : (Fin N → ℝ) → ℝ) (δ : Fin N → ℝ) (ω ε : ℝ)
    (hF : VariesAtMost G.size G.node F δ ω) (hh : CellsAtMost G.size G.node δ)
    (g : (Fin N → Nat) → ℚ) (hg : Samples G.size vals g)
    (hε : ∀ loc : Fin N → Nat, (∀ k, loc k < G.size k) →
      |(g loc : ℝ) - F fun k => (G.node k (loc k) : ℝ)| ≤ ε)
    (x : Fin N → ℚ) (hin : ∀ k, InRange (G.size k) (G.node k) (x k)) (y : ℚ)
    (hy : multilinearAt e fma G vals x = .ok y) :
    |(y : ℝ) - F fun k => (x k : ℝ)| ≤ ω + ε := by
  have hyR := multilinearAt_toReal e he fma G vals hG x hin y hy
  have hG1 := hG.toReal (vals' := vals.map fun a : ℚ => (a : ℝ)) (by simp)
  have hin' := fun k => (hin k).toReal
  obtain ⟨c, hc⟩ := hG.cells le_rfl x
  obtain ⟨z, hz, h1, h2⟩ := C22_range e he fma G.toReal _ hG1 _
    (by have := hg.toReal; rwa [← funext (Axes.toReal_size G)] at this) _
    (hG1.inRange_fits le_rfl hin' _ (by decide)) hin' c (fun k => (hc k).toReal)
    ((F fun k => (x k : ℝ)) - (ω + ε)) ((F fun k => (x k : ℝ)) + (ω + ε)) (fun loc hl => by
      have hlt : ∀ k, loc k < G.size k := fun k => by have := (hc k).1; have := hl k; omega
      have := abs_le.1 (near_node hG hF hin hlt
        (fun k => corner_near (hc k) (hin k) (hh k _ (hc k).1) (hl k)) (hε loc hlt))
      constructor <;> linarith [this.1, this.2])
  rw [hyR] at hz
  cases hz
  rw [abs_le]
  constructor <;> linarith

/-- Exact multicubic interpolation of an inexact table. -/
theorem cubic_modulus (e : Evaluator) (he : e.Fits N) (fma : Bool) (G : Axes ℚ N) (vals : List ℚ)
    (lin : Bool) (hG : G.Valid 4 vals) (F : (Fin N → ℝ) → ℝ) (h : Fin N → ℝ) (ω ε : ℝ)
    (hF : VariesAtMost G.size G.node F (fun k => 2 * h k) ω) (hh : CellsAtMost G.size G.node h)
    (ρ : ℚ) (hρ : ∀ k, MeshRatio (G.size k) (G.node k) ρ)
    (g : (Fin N → Nat) → ℚ) (hg : Samples G.size vals g)
    (hε : ∀ loc : Fin N → Nat, (∀ k, loc k < G.size k) →
      |(g loc : ℝ) - F fun k => (G.node k (loc k) : ℝ)| ≤ ε)
    (x : Fin N → ℚ) (hin : ∀ k, InRange (G.size k) (G.node k) (x k)) (y : ℚ)
    (hy : multicubicAt e fma G vals lin x = .ok y) :
    |(y : ℝ) - F fun k => (x k : ℝ)| ≤ (1 + (ρ : ℝ) ^ 2 / (2 * (1 + ρ))) ^ N * (ω + ε) := by
  have hyR := multicubicAt_toReal e he fma G vals lin hG x hin y hy
  have hG1 := hG.toReal (vals' := vals.map fun a : ℚ => (a : ℝ)) (by simp)
  have hin' := fun k => (hin k).toReal
  obtain ⟨c, hc⟩ := hG.cells (by omega) x
  obtain ⟨z, hz, h1⟩ := C63_overshoot e he fma G.toReal _ lin hG1 _
    (by have := hg.toReal; rwa [← funext (Axes.toReal_size G)] at this) ρ (fun k => (hρ k).toReal) _
    (hG1.inRange_fits (by omega) hin' _ (by decide)) hin' c (fun k => (hc k).toReal)
    ((F fun k => (x k : ℝ)) - (ω + ε)) ((F fun k => (x k : ℝ)) + (ω + ε)) (fun loc hl => by
      have hlt : ∀ k, loc k < G.size k := fun k => by have := (hl k).1; rwa [Axes.toReal_size] at this
      have := abs_le.1 (near_node hG hF hin hlt (fun k => by
        obtain ⟨-, l1, l2⟩ := hl k
        have l0 := hlt k
        have hc1 := (hc k).1
        have hw := hh k (c k) hc1
        obtain ⟨ha, hb⟩ := inRange_of_inCell (hc k) (hin k)
        have ha' : (G.node k (c k) : ℝ) ≤ x k := by exact_mod_cast ha
        have hb' : (x k : ℝ) ≤ G.node k (c k + 1) := by exact_mod_cast hb
        rw [abs_le]
        rcases (show loc k + 1 = c k ∨ loc k = c k ∨ loc k = c k + 1 ∨ loc k = c k + 2 by omega) with
          q | q | q | q
        · have hw' := hh k (loc k) (by omega)
          have hi : (G.node k (loc k) : ℝ) < G.node k (c k) := by
            exact_mod_cast (hG.incr k).lt (i := loc k) (j := c k) (by omega) (by omega)
          rw [q] at hw'
          constructor <;> linarith
        · simp only [q]; constructor <;> linarith
        · simp only [q]; constructor <;> linarith
        · have hw' := hh k (c k + 1) (by omega)
          have hi : (G.node k (c k + 1) : ℝ) < G.node k (loc k) := by
            exact_mod_cast (hG.incr k).lt (i := c k + 1) (j := loc k) (by omega) l0
          rw [show c k + 1 + 1 = loc k by omega] at hw'
          constructor <;> linarith) (hε loc hlt))
      constructor <;> linarith [this.1, this.2])
  rw [hyR] at hz
  cases hz
  have e1 : ((F fun k => (x k : ℝ)) - (ω + ε) + ((F fun k => (x k : ℝ)) + (ω + ε))) / 2 =
      F fun k => (x k : ℝ) := by ring
  have e2 : ((F fun k => (x k : ℝ)) + (ω + ε) - ((F fun k => (x k : ℝ)) - (ω + ε))) / 2 = ω + ε := by
    ring
  rwa [e1, e2] at h1

/-- C138, `f64`, multilinear on a rectilinear grid: the computed number differs from the value of the
tabulated function at the observation by at most the change `ω` of the function over a cell, plus the
error `ε` of the table, plus rounding errors. -/
theorem C138_linear_rectilinear_f64 (e : Evaluator) (he : e.Fits N) (hN : N ≤ 1000) (fma : Bool)
    (grids : Fin N → List F64) (vals : List F64)
    (hG : (Axes.rectilinear fun k => (grids k).map val).Valid 2 (vals.map val))
    (hgrid : ∀ k, ∀ a ∈ grids k, Finite a ∧ |val a| ≤ 2 ^ 1022) (M : ℚ) (hM : M ≤ 2 ^ 1020)
    (hvals : ∀ v ∈ vals, Finite v ∧ |val v| ≤ M)
    (F : (Fin N → ℝ) → ℝ) (h : Fin N → ℝ) (ω ε : ℝ)
    (hF : VariesAtMost (fun k => (grids k).length) (fun k i => ((grids k).map val).getD i 0) F h ω)
    (hh : CellsAtMost (fun k => (grids k).length) (fun k i => ((grids k).map val).getD i 0) h)
    (htab : TableOf (fun k => (grids k).length) (fun k i => ((grids k).map val).getD i 0) F ε vals)
    (x : Fin N → F64) (hx : ∀ k, Finite (x k))
    (hin : ∀ k, InRange (grids k).length (fun i => ((grids k).map val).getD i 0) (val (x k))) :
    ∃ r, multilinearRectilinearAt e fma grids vals x = .ok r ∧ Finite r ∧
      |((val r : ℚ) : ℝ) - F fun k => ((val (x k) : ℚ) : ℝ)| ≤
        ω + ε + (26 * N * (1 / 2 ^ 53) * M + 3 * N * (1 / 2 ^ 1075)) := by
  obtain ⟨r, y, h1, h2, h3, h4⟩ := C81_rectilinear_f64 e he hN fma grids vals hG hgrid M hM hvals x hx
    hin
  obtain ⟨g, hg, hε⟩ := htab.samples
  have hsz : (Axes.rectilinear fun k => (grids k).map val : Axes ℚ N).size =
      fun k => (grids k).length := funext fun k => by simp [Axes.size]
  refine ⟨r, h1, h2, (add_rounding h4 (linear_modulus e he fma _ _ hG F h ω ε ?_ ?_ g ?_ ?_ _ ?_ y
    h3)).trans_eq (by push_cast; ring)⟩
  · rw [hsz]; exact hF
  · rw [hsz]; exact hh
  · rw [hsz]; exact hg
  · rw [hsz]; exact hε
  · rw [hsz]; exact hin

/-- C138, `f64`, multilinear on a regular grid. -/
theorem C138_linear_regular_f64 (e : Evaluator) (he : e.Fits N) (fma : Bool) (κ : ℚ) (hκ : 0 ≤ κ)
    (hN : 100 * N * (1 + κ) ≤ 2 ^ 53)
    (dims : Fin N → Nat) (starts steps : Fin N → F64) (vals : List F64)
    (hG : (Axes.regular dims (fun k => val (starts k)) fun k => val (steps k)).Valid 2
      (vals.map val))
    (hfin : ∀ k, Finite (starts k) ∧ Finite (steps k)) (hnormal : ∀ k, 1 / 2 ^ 1022 ≤ val (steps k))
    (hnodes : ∀ k, |val (starts k)| ≤ κ * val (steps k) ∧
      |val (starts k) + val (steps k) * ((dims k - 1 : Nat) : ℚ)| ≤ κ * val (steps k))
    (hlarge : ∀ k, κ * val (steps k) ≤ 2 ^ 1020) (M : ℚ) (hM : M ≤ 2 ^ 1020)
    (hvals : ∀ v ∈ vals, Finite v ∧ |val v| ≤ M)
    (F : (Fin N → ℝ) → ℝ) (ω ε : ℝ)
    (hF : VariesAtMost dims (fun k i => val (starts k) + val (steps k) * (i : ℚ)) F
      (fun k => ((val (steps k) : ℚ) : ℝ)) ω)
    (htab : TableOf dims (fun k i => val (starts k) + val (steps k) * (i : ℚ)) F ε vals)
    (x : Fin N → F64) (hx : ∀ k, Finite (x k))
    (hin : ∀ k, InRange (dims k) (fun i => val (starts k) + val (steps k) * (i : ℚ)) (val (x k))) :
    ∃ r, multilinearRegularAt e fma dims starts steps vals x = .ok r ∧ Finite r ∧
      |((val r : ℚ) : ℝ) - F fun k => ((val (x k) : ℚ) : ℝ)| ≤
        ω + ε + (60 * N * (1 + κ) * (1 / 2 ^ 53) * M + 3 * N * (1 / 2 ^ 1075)) := by
  obtain ⟨r, y, h1, h2, h3, h4⟩ := C81_regular_f64 e he fma κ hκ hN dims starts steps vals hG hfin
    hnormal hnodes hlarge M hM hvals x hx hin
  obtain ⟨g, hg, hε⟩ := htab.samples
  refine ⟨r, h1, h2, (add_rounding h4 (linear_modulus e he fma _ _ hG F
    (fun k => ((val (steps k) : ℚ) : ℝ)) ω ε hF (fun k i _ => ?_) g hg hε _ hin y h3)).trans_eq
    (by push_cast; ring)⟩
  simp only [Axes.node]; push_cast; linarith

/-- C138, `f64`, multicubic on a rectilinear grid; `ω` bounds the change of the function over two
cells. -/
theorem C138_cubic_rectilinear_f64 (e : Evaluator) (he : e.Fits N) (hN8 : N ≤ 8) (fma : Bool)
    (grids : Fin N → List F64) (vals : List F64) (lin : Bool)
    (hG : (Axes.rectilinear fun k => (grids k).map val).Valid 4 (vals.map val))
    (hgrid : ∀ k, ∀ a ∈ grids k, Finite a ∧ |val a| ≤ 2 ^ 1022)
    (M : ℚ) (hM : M ≤ 2 ^ 700) (hM1 : 1 / 2 ^ 1022 ≤ M)
    (hvals : ∀ v ∈ vals, Finite v ∧ |val v| ≤ M)
    (F : (Fin N → ℝ) → ℝ) (h : Fin N → ℝ) (ω ε : ℝ)
    (hF : VariesAtMost (fun k => (grids k).length) (fun k i => ((grids k).map val).getD i 0) F
      (fun k => 2 * h k) ω)
    (hh : CellsAtMost (fun k => (grids k).length) (fun k i => ((grids k).map val).getD i 0) h)
    (htab : TableOf (fun k => (grids k).length) (fun k i => ((grids k).map val).getD i 0) F ε vals)
    (x : Fin N → F64) (hx : ∀ k, Finite (x k))
    (hin : ∀ k, InRange (grids k).length (fun i => ((grids k).map val).getD i 0) (val (x k)))
    (ρ : ℚ) (hρ : 1 ≤ ρ) (hρ2 : ρ ≤ 2 ^ 30)
    (hmesh : ∀ k, MeshRatio (grids k).length (fun i => ((grids k).map val).getD i 0) ρ) :
    ∃ r, multicubicRectilinearAt e fma grids vals lin x = .ok r ∧ Finite r ∧
      |((val r : ℚ) : ℝ) - F fun k => ((val (x k) : ℚ) : ℝ)| ≤
        (1 + (ρ : ℝ) ^ 2 / (2 * (1 + ρ))) ^ N * (ω + ε) +
          3200 * N * ρ * (1 / 2 ^ 53) * (1 + (ρ : ℝ) ^ 2 / (2 * (1 + ρ))) ^ N * M := by
  obtain ⟨r, y, h1, h2, h3, h4⟩ := C82_rectilinear_f64 e he hN8 fma grids vals lin hG hgrid M hM hM1
    hvals x hx hin ρ hρ hρ2 hmesh
  obtain ⟨g, hg, hε⟩ := htab.samples
  have hsz : (Axes.rectilinear fun k => (grids k).map val : Axes ℚ N).size =
      fun k => (grids k).length := funext fun k => by simp [Axes.size]
  refine ⟨r, h1, h2, (add_rounding h4 (cubic_modulus e he fma _ _ lin hG F h ω ε ?_ ?_ ρ ?_ g ?_ ?_ _
    ?_ y h3)).trans_eq (by push_cast; ring)⟩
  · rw [hsz]; exact hF
  · rw [hsz]; exact hh
  · rw [hsz]; exact hmesh
  · rw [hsz]; exact hg
  · rw [hsz]; exact hε
  · rw [hsz]; exact hin

/-- C138, `f64`, multicubic on a regular grid. -/
theorem C138_cubic_regular_f64 (e : Evaluator) (he : e.Fits N) (hN8 : N ≤ 8) (fma : Bool) (κ : ℚ)
    (hκ : 0 ≤ κ) (hN : 4200 * N * (1 + κ) ≤ 2 ^ 53)
    (dims : Fin N → Nat) (starts steps : Fin N → F64) (vals : List F64) (lin : Bool)
    (hG : (Axes.regular dims (fun k => val (starts k)) fun k => val (steps k)).Valid 4
      (vals.map val))
    (hfin : ∀ k, Finite (starts k) ∧ Finite (steps k)) (hnormal : ∀ k, 1 / 2 ^ 1022 ≤ val (steps k))
    (hnodes : ∀ k, |val (starts k)| ≤ κ * val (steps k) ∧
      |val (starts k) + val (steps k) * ((dims k - 1 : Nat) : ℚ)| ≤ κ * val (steps k))
    (hlarge : ∀ k, κ * val (steps k) ≤ 2 ^ 1020)
    (M : ℚ) (hM : M ≤ 2 ^ 1000) (hM1 : 1 / 2 ^ 1022 ≤ M)
    (hvals : ∀ v ∈ vals, Finite v ∧ |val v| ≤ M)
    (F : (Fin N → ℝ) → ℝ) (ω ε : ℝ)
    (hF : VariesAtMost dims (fun k i => val (starts k) + val (steps k) * (i : ℚ)) F
      (fun k => 2 * ((val (steps k) : ℚ) : ℝ)) ω)
    (htab : TableOf dims (fun k i => val (starts k) + val (steps k) * (i : ℚ)) F ε vals)
    (x : Fin N → F64) (hx : ∀ k, Finite (x k))
    (hin : ∀ k, InRange (dims k) (fun i => val (starts k) + val (steps k) * (i : ℚ)) (val (x k))) :
    ∃ r, multicubicRegularAt e fma dims starts steps vals lin x = .ok r ∧ Finite r ∧
      |((val r : ℚ) : ℝ) - F fun k => ((val (x k) : ℚ) : ℝ)| ≤
        (5 / 4) ^ N * (ω + ε) + 4200 * N * (1 + κ) * (1 / 2 ^ 53) * (5 / 4) ^ N * M := by
  obtain ⟨r, y, h1, h2, h3, h4⟩ := C82_regular_f64 e he hN8 fma κ hκ hN dims starts steps vals lin hG
    hfin hnormal hnodes hlarge M hM hM1 hvals x hx hin
  obtain ⟨g, hg, hε⟩ := htab.samples
  have h5 := cubic_modulus e he fma _ _ lin hG F (fun k => ((val (steps k) : ℚ) : ℝ)) ω ε hF
    (fun k i _ => by simp only [Axes.node]; push_cast; linarith) 1 (meshRatio_regular _ _ _) g hg hε _
    hin y h3
  have e5 : (1 : ℝ) + ((1 : ℚ) : ℝ) ^ 2 / (2 * (1 + ((1 : ℚ) : ℝ))) = 5 / 4 := by norm_num
  rw [e5] at h5
  exact ⟨r, h1, h2, (add_rounding h4 h5).trans_eq (by push_cast; ring)⟩

/-- C138, `f64`, nearest neighbor on a rectilinear grid: no rounding error is added. -/
theorem C138_nearest_rectilinear_f64 (grids : Fin N → List F64) (vals : List F64)
    (hG : (Axes.rectilinear fun k => (grids k).map val).Valid 2 (vals.map val))
    (hgrid : ∀ k, ∀ a ∈ grids k, Finite a ∧ |val a| ≤ 2 ^ 1022) (hvals : ∀ v ∈ vals, Finite v)
    (F : (Fin N → ℝ) → ℝ) (h : Fin N → ℝ) (ω ε : ℝ)
    (hF : VariesAtMost (fun k => (grids k).length) (fun k i => ((grids k).map val).getD i 0) F h ω)
    (hh : CellsAtMost (fun k => (grids k).length) (fun k i => ((grids k).map val).getD i 0) h)
    (htab : TableOf (fun k => (grids k).length) (fun k i => ((grids k).map val).getD i 0) F ε vals)
    (x : Fin N → F64) (hx : ∀ k, Finite (x k))
    (hin : ∀ k, InRange (grids k).length (fun i => ((grids k).map val).getD i 0) (val (x k))) :
    ∃ r ∈ vals, nearestRectilinearAt grids vals x = .ok r ∧ Finite r ∧
      |((val r : ℚ) : ℝ) - F fun k => ((val (x k) : ℚ) : ℝ)| ≤ ω + ε := by
  have hsz : (Axes.rectilinear fun k => (grids k).map val : Axes ℚ N).size =
      fun k => (grids k).length := funext fun k => by simp [Axes.size]
  have hlen : vals.length = ∏ k, (grids k).length := by
    have := hG.len
    rw [hsz] at this
    simpa using this
  have hs := samples_valAt (.nan : F64) (fun k => (grids k).length) vals hlen
  obtain ⟨loc, h1, h2⟩ := C83_rectilinear_f64 grids vals hG _ hs hgrid x hx hin
  have hlt : ∀ k, loc k < (grids k).length := fun k => by
    obtain ⟨c, hc, hl, -⟩ := h2 k
    have := hc.1
    omega
  have hget := hs loc hlt
  obtain ⟨v, hv1, hv2⟩ := htab loc hlt
  rw [hget] at hv1
  cases hv1
  refine ⟨_, List.mem_of_getElem? hget, h1, hvals _ (List.mem_of_getElem? hget),
    near_node hG (by rw [hsz]; exact hF) (by rw [hsz]; exact hin)
    (loc := loc) (by rw [hsz]; exact hlt) (fun k => ?_) hv2⟩
  obtain ⟨c, hc, hl, -⟩ := h2 k
  exact corner_near hc (hin k) (hh k _ hc.1) hl

/-- C138, `f64`, nearest neighbor on a regular grid: rounding can choose the other node of the cell
near its middle but adds no error of its own. -/
theorem C138_nearest_regular_f64 (fma : Bool) (κ : ℚ) (hκ : 0 ≤ κ) (hN : 100 * (1 + κ) ≤ 2 ^ 53)
    (dims : Fin N → Nat) (starts steps : Fin N → F64) (vals : List F64)
    (hG : (Axes.regular dims (fun k => val (starts k)) fun k => val (steps k)).Valid 2
      (vals.map val))
    (hfin : ∀ k, Finite (starts k) ∧ Finite (steps k)) (hnormal : ∀ k, 1 / 2 ^ 1022 ≤ val (steps k))
    (hnodes : ∀ k, |val (starts k)| ≤ κ * val (steps k) ∧
      |val (starts k) + val (steps k) * ((dims k - 1 : Nat) : ℚ)| ≤ κ * val (steps k))
    (hlarge : ∀ k, κ * val (steps k) ≤ 2 ^ 1020) (hvals : ∀ v ∈ vals, Finite v)
    (F : (Fin N → ℝ) → ℝ) (ω ε : ℝ)
    (hF : VariesAtMost dims (fun k i => val (starts k) + val (steps k) * (i : ℚ)) F
      (fun k => ((val (steps k) : ℚ) : ℝ)) ω)
    (htab : TableOf dims (fun k i => val (starts k) + val (steps k) * (i : ℚ)) F ε vals)
    (x : Fin N → F64) (hx : ∀ k, Finite (x k))
    (hin : ∀ k, InRange (dims k) (fun i => val (starts k) + val (steps k) * (i : ℚ)) (val (x k))) :
    ∃ r ∈ vals, nearestRegularAt fma dims starts steps vals x = .ok r ∧ Finite r ∧
      |((val r : ℚ) : ℝ) - F fun k => ((val (x k) : ℚ) : ℝ)| ≤ ω + ε := by
  have hlen : vals.length = ∏ k, dims k := by simpa [Axes.size] using hG.len
  have hs := samples_valAt (.nan : F64) dims vals hlen
  obtain ⟨loc, h1, h2⟩ := C83_regular_f64 fma κ hκ hN dims starts steps vals hG _ hs hfin hnormal hnodes
    hlarge x hx hin
  have hlt : ∀ k, loc k < dims k := fun k => (h2 k).1
  have hget := hs loc hlt
  obtain ⟨v, hv1, hv2⟩ := htab loc hlt
  rw [hget] at hv1
  cases hv1
  refine ⟨_, List.mem_of_getElem? hget, h1, hvals _ (List.mem_of_getElem? hget),
    near_node hG hF hin (loc := loc) hlt (fun k => ?_) hv2⟩
  have hk : (1 + κ) * (1 / 2 ^ 53) ≤ 1 / 100 := by
    rw [mul_one_div, div_le_iff₀ (by norm_num)]; linarith
  obtain ⟨c, hc⟩ := hG.cells le_rfl fun k => val (x k)
  have hs0 : 0 ≤ val (steps k) := le_trans (by norm_num) (hnormal k)
  have h3 := mul_le_mul_of_nonneg_right hk hs0
  exact step_near (hc k) (hin k) (by linarith) (h2 k)

/-- C138, `f32`, multilinear on a rectilinear grid: the computed number differs from the value of the
tabulated function at the observation by at most the change `ω` of the function over a cell, plus the
error `ε` of the table, plus rounding errors. -/
theorem C138_linear_rectilinear_f32 (e : Evaluator) (he : e.Fits N) (hN : N ≤ 1000) (fma : Bool)
    (grids : Fin N → List F32) (vals : List F32)
    (hG : (Axes.rectilinear fun k => (grids k).map val).Valid 2 (vals.map val))
    (hgrid : ∀ k, ∀ a ∈ grids k, Finite a ∧ |val a| ≤ 2 ^ 126) (M : ℚ) (hM : M ≤ 2 ^ 124)
    (hvals : ∀ v ∈ vals, Finite v ∧ |val v| ≤ M)
    (F : (Fin N → ℝ) → ℝ) (h : Fin N → ℝ) (ω ε : ℝ)
    (hF : VariesAtMost (fun k => (grids k).length) (fun k i => ((grids k).map val).getD i 0) F h ω)
    (hh : CellsAtMost (fun k => (grids k).length) (fun k i => ((grids k).map val).getD i 0) h)
    (htab : TableOf (fun k => (grids k).length) (fun k i => ((grids k).map val).getD i 0) F ε vals)
    (x : Fin N → F32) (hx : ∀ k, Finite (x k))
    (hin : ∀ k, InRange (grids k).length (fun i => ((grids k).map val).getD i 0) (val (x k))) :
    ∃ r, multilinearRectilinearAt e fma grids vals x = .ok r ∧ Finite r ∧
      |((val r : ℚ) : ℝ) - F fun k => ((val (x k) : ℚ) : ℝ)| ≤
        ω + ε + (26 * N * (1 / 2 ^ 24) * M + 3 * N * (1 / 2 ^ 150)) := by
  obtain ⟨r, y, h1, h2, h3, h4⟩ := C81_rectilinear_f32 e he hN fma grids vals hG hgrid M hM hvals x hx
    hin
  obtain ⟨g, hg, hε⟩ := htab.samples
  have hsz : (Axes.rectilinear fun k => (grids k).map val : Axes ℚ N).size =
      fun k => (grids k).length := funext fun k => by simp [Axes.size]
  refine ⟨r, h1, h2, (add_rounding h4 (linear_modulus e he fma _ _ hG F h ω ε ?_ ?_ g ?_ ?_ _ ?_ y
    h3)).trans_eq (by push_cast; ring)⟩
  · rw [hsz]; exact hF
  · rw [hsz]; exact hh
  · rw [hsz]; exact hg
  · rw [hsz]; exact hε
  · rw [hsz]; exact hin

/-- C138, `f32`, multilinear on a regular grid. -/
theorem C138_linear_regular_f32 (e : Evaluator) (he : e.Fits N) (fma : Bool) (κ : ℚ) (hκ : 0 ≤ κ)
    (hN : 100 * N * (1 + κ) ≤ 2 ^ 24)
    (dims : Fin N → Nat) (starts steps : Fin N → F32) (vals : List F32)
    (hG : (Axes.regular dims (fun k => val (starts k)) fun k => val (steps k)).Valid 2
      (vals.map val))
    (hfin : ∀ k, Finite (starts k) ∧ Finite (steps k)) (hnormal : ∀ k, 1 / 2 ^ 126 ≤ val (steps k))
    (hnodes : ∀ k, |val (starts k)| ≤ κ * val (steps k) ∧
      |val (starts k) + val (steps k) * ((dims k - 1 : Nat) : ℚ)| ≤ κ * val (steps k))
    (hlarge : ∀ k, κ * val (steps k) ≤ 2 ^ 124) (M : ℚ) (hM : M ≤ 2 ^ 124)
    (hvals : ∀ v ∈ vals, Finite v ∧ |val v| ≤ M)
    (F : (Fin N → ℝ) → ℝ) (ω ε : ℝ)
    (hF : VariesAtMost dims (fun k i => val (starts k) + val (steps k) * (i : ℚ)) F
      (fun k => ((val (steps k) : ℚ) : ℝ)) ω)
    (htab : TableOf dims (fun k i => val (starts k) + val (steps k) * (i : ℚ)) F ε vals)
    (x : Fin N → F32) (hx : ∀ k, Finite (x k))
    (hin : ∀ k, InRange (dims k) (fun i => val (starts k) + val (steps k) * (i : ℚ)) (val (x k))) :
    ∃ r, multilinearRegularAt e fma dims starts steps vals x = .ok r ∧ Finite r ∧
      |((val r : ℚ) : ℝ) - F fun k => ((val (x k) : ℚ) : ℝ)| ≤
        ω + ε + (60 * N * (1 + κ) * (1 / 2 ^ 24) * M + 3 * N * (1 / 2 ^ 150)) := by
  obtain ⟨r, y, h1, h2, h3, h4⟩ := C81_regular_f32 e he fma κ hκ hN dims starts steps vals hG hfin
    hnormal hnodes hlarge M hM hvals x hx hin
  obtain ⟨g, hg, hε⟩ := htab.samples
  refine ⟨r, h1, h2, (add_rounding h4 (linear_modulus e he fma _ _ hG F
    (fun k => ((val (steps k) : ℚ) : ℝ)) ω ε hF (fun k i _ => ?_) g hg hε _ hin y h3)).trans_eq
    (by push_cast; ring)⟩
  simp only [Axes.node]; push_cast; linarith

/-- C138, `f32`, multicubic on a rectilinear grid; `ω` bounds the change of the function over two
cells. -/
theorem C138_cubic_rectilinear_f32 (e : Evaluator) (he : e.Fits N) (hN8 : N ≤ 8) (fma : Bool)
    (grids : Fin N → List F32) (vals : List F32) (lin : Bool)
    (hG : (Axes.rectilinear fun k => (grids k).map val).Valid 4 (vals.map val))
    (hgrid : ∀ k, ∀ a ∈ grids k, Finite a ∧ |val a| ≤ 2 ^ 126)
    (M : ℚ) (hM : M ≤ 2 ^ 40) (hM1 : 1 / 2 ^ 126 ≤ M)
    (hvals : ∀ v ∈ vals, Finite v ∧ |val v| ≤ M)
    (F : (Fin N → ℝ) → ℝ) (h : Fin N → ℝ) (ω ε : ℝ)
    (hF : VariesAtMost (fun k => (grids k).length) (fun k i => ((grids k).map val).getD i 0) F
      (fun k => 2 * h k) ω)
    (hh : CellsAtMost (fun k => (grids k).length) (fun k i => ((grids k).map val).getD i 0) h)
    (htab : TableOf (fun k => (grids k).length) (fun k i => ((grids k).map val).getD i 0) F ε vals)
    (x : Fin N → F32) (hx : ∀ k, Finite (x k))
    (hin : ∀ k, InRange (grids k).length (fun i => ((grids k).map val).getD i 0) (val (x k)))
    (ρ : ℚ) (hρ : 1 ≤ ρ) (hρ2 : ρ ≤ 2 ^ 9)
    (hmesh : ∀ k, MeshRatio (grids k).length (fun i => ((grids k).map val).getD i 0) ρ) :
    ∃ r, multicubicRectilinearAt e fma grids vals lin x = .ok r ∧ Finite r ∧
      |((val r : ℚ) : ℝ) - F fun k => ((val (x k) : ℚ) : ℝ)| ≤
        (1 + (ρ : ℝ) ^ 2 / (2 * (1 + ρ))) ^ N * (ω + ε) +
          3200 * N * ρ * (1 / 2 ^ 24) * (1 + (ρ : ℝ) ^ 2 / (2 * (1 + ρ))) ^ N * M := by
  obtain ⟨r, y, h1, h2, h3, h4⟩ := C82_rectilinear_f32 e he hN8 fma grids vals lin hG hgrid M hM hM1
    hvals x hx hin ρ hρ hρ2 hmesh
  obtain ⟨g, hg, hε⟩ := htab.samples
  have hsz : (Axes.rectilinear fun k => (grids k).map val : Axes ℚ N).size =
      fun k => (grids k).length := funext fun k => by simp [Axes.size]
  refine ⟨r, h1, h2, (add_rounding h4 (cubic_modulus e he fma _ _ lin hG F h ω ε ?_ ?_ ρ ?_ g ?_ ?_ _
    ?_ y h3)).trans_eq (by push_cast; ring)⟩
  · rw [hsz]; exact hF
  · rw [hsz]; exact hh
  · rw [hsz]; exact hmesh
  · rw [hsz]; exact hg
  · rw [hsz]; exact hε
  · rw [hsz]; exact hin

/-- C138, `f32`, multicubic on a regular grid. -/
theorem C138_cubic_regular_f32 (e : Evaluator) (he : e.Fits N) (hN8 : N ≤ 8) (fma : Bool) (κ : ℚ)
    (hκ : 0 ≤ κ) (hN : 4200 * N * (1 + κ) ≤ 2 ^ 24)
    (dims : Fin N → Nat) (starts steps : Fin N → F32) (vals : List F32) (lin : Bool)
    (hG : (Axes.regular dims (fun k => val (starts k)) fun k => val (steps k)).Valid 4
      (vals.map val))
    (hfin : ∀ k, Finite (starts k) ∧ Finite (steps k)) (hnormal : ∀ k, 1 / 2 ^ 126 ≤ val (steps k))
    (hnodes : ∀ k, |val (starts k)| ≤ κ * val (steps k) ∧
      |val (starts k) + val (steps k) * ((dims k - 1 : Nat) : ℚ)| ≤ κ * val (steps k))
    (hlarge : ∀ k, κ * val (steps k) ≤ 2 ^ 124)
    (M : ℚ) (hM : M ≤ 2 ^ 110) (hM1 : 1 / 2 ^ 126 ≤ M)
    (hvals : ∀ v ∈ vals, Finite v ∧ |val v| ≤ M)
    (F : (Fin N → ℝ) → ℝ) (ω ε : ℝ)
    (hF : VariesAtMost dims (fun k i => val (starts k) + val (steps k) * (i : ℚ)) F
      (fun k => 2 * ((val (steps k) : ℚ) : ℝ)) ω)
    (htab : TableOf dims (fun k i => val (starts k) + val (steps k) * (i : ℚ)) F ε vals)
    (x : Fin N → F32) (hx : ∀ k, Finite (x k))
    (hin : ∀ k, InRange (dims k) (fun i => val (starts k) + val (steps k) * (i : ℚ)) (val (x k))) :
    ∃ r, multicubicRegularAt e fma dims starts steps vals lin x = .ok r ∧ Finite r ∧
      |((val r : ℚ) : ℝ) - F fun k => ((val (x k) : ℚ) : ℝ)| ≤
        (5 / 4) ^ N * (ω + ε) + 4200 * N * (1 + κ) * (1 / 2 ^ 24) * (5 / 4) ^ N * M := by
  obtain ⟨r, y, h1, h2, h3, h4⟩ := C82_regular_f32 e he hN8 fma κ hκ hN dims starts steps vals lin hG
    hfin hnormal hnodes hlarge M hM hM1 hvals x hx hin
  obtain ⟨g, hg, hε⟩ := htab.samples
  have h5 := cubic_modulus e he fma _ _ lin hG F (fun k => ((val (steps k) : ℚ) : ℝ)) ω ε hF
    (fun k i _ => by simp only [Axes.node]; push_cast; linarith) 1 (meshRatio_regular _ _ _) g hg hε _
    hin y h3
  have e5 : (1 : ℝ) + ((1 : ℚ) : ℝ) ^ 2 / (2 * (1 + ((1 : ℚ) : ℝ))) = 5 / 4 := by norm_num
  rw [e5] at h5
  exact ⟨r, h1, h2, (add_rounding h4 h5).trans_eq (by push_cast; ring)⟩

/-- C138, `f32`, nearest neighbor on a rectilinear grid: no rounding error is added. -/
theorem C138_nearest_rectilinear_f32 (grids : Fin N → List F32) (vals : List F32)
    (hG : (Axes.rectilinear fun k => (grids k).map val).Valid 2 (vals.map val))
    (hgrid : ∀ k, ∀ a ∈ grids k, Finite a ∧ |val a| ≤ 2 ^ 126) (hvals : ∀ v ∈ vals, Finite v)
    (F : (Fin N → ℝ) → ℝ) (h : Fin N → ℝ) (ω ε : ℝ)
    (hF : VariesAtMost (fun k => (grids k).length) (fun k i => ((grids k).map val).getD i 0) F h ω)
    (hh : CellsAtMost (fun k => (grids k).length) (fun k i => ((grids k).map val).getD i 0) h)
    (htab : TableOf (fun k => (grids k).length) (fun k i => ((grids k).map val).getD i 0) F ε vals)
    (x : Fin N → F32) (hx : ∀ k, Finite (x k))
    (hin : ∀ k, InRange (grids k).length (fun i => ((grids k).map val).getD i 0) (val (x k))) :
    ∃ r ∈ vals, nearestRectilinearAt grids vals x = .ok r ∧ Finite r ∧
      |((val r : ℚ) : ℝ) - F fun k => ((val (x k) : ℚ) : ℝ)| ≤ ω + ε := by
  have hsz : (Axes.rectilinear fun k => (grids k).map val : Axes ℚ N).size =
      fun k => (grids k).length := funext fun k => by simp [Axes.size]
  have hlen : vals.length = ∏ k, (grids k).length := by
    have := hG.len
    rw [hsz] at this
    simpa using this
  have hs := samples_valAt (.nan : F32) (fun k => (grids k).length) vals hlen
  obtain ⟨loc, h1, h2⟩ := C83_rectilinear_f32 grids vals hG _ hs hgrid x hx hin
  have hlt : ∀ k, loc k < (grids k).length := fun k => by
    obtain ⟨c, hc, hl, -⟩ := h2 k
    have := hc.1
    omega
  have hget := hs loc hlt
  obtain ⟨v, hv1, hv2⟩ := htab loc hlt
  rw [hget] at hv1
  cases hv1
  refine ⟨_, List.mem_of_getElem? hget, h1, hvals _ (List.mem_of_getElem? hget),
    near_node hG (by rw [hsz]; exact hF) (by rw [hsz]; exact hin)
    (loc := loc) (by rw [hsz]; exact hlt) (fun k => ?_) hv2⟩
  obtain ⟨c, hc, hl, -⟩ := h2 k
  exact corner_near hc (hin k) (hh k _ hc.1) hl

/-- C138, `f32`, nearest neighbor on a regular grid: rounding can choose the other node of the cell
near its middle but adds no error of its own. -/
theorem C138_nearest_regular_f32 (fma : Bool) (κ : ℚ) (hκ : 0 ≤ κ) (hN : 100 * (1 + κ) ≤ 2 ^ 24)
    (dims : Fin N → Nat) (starts steps : Fin N → F32) (vals : List F32)
    (hG : (Axes.regular dims (fun k => val (starts k)) fun k => val (steps k)).Valid 2
      (vals.map val))
    (hfin : ∀ k, Finite (starts k) ∧ Finite (steps k)) (hnormal : ∀ k, 1 / 2 ^ 126 ≤ val (steps k))
    (hnodes : ∀ k, |val (starts k)| ≤ κ * val (steps k) ∧
      |val (starts k) + val (steps k) * ((dims k - 1 : Nat) : ℚ)| ≤ κ * val (steps k))
    (hlarge : ∀ k, κ * val (steps k) ≤ 2 ^ 124) (hvals : ∀ v ∈ vals, Finite v)
    (F : (Fin N → ℝ) → ℝ) (ω ε : ℝ)
    (hF : VariesAtMost dims (fun k i => val (starts k) + val (steps k) * (i : ℚ)) F
      (fun k => ((val (steps k) : ℚ) : ℝ)) ω)
    (htab : TableOf dims (fun k i => val (starts k) + val (steps k) * (i : ℚ)) F ε vals)
    (x : Fin N → F32) (hx : ∀ k, Finite (x k))
    (hin : ∀ k, InRange (dims k) (fun i => val (starts k) + val (steps k) * (i : ℚ)) (val (x k))) :
    ∃ r ∈ vals, nearestRegularAt fma dims starts steps vals x = .ok r ∧ Finite r ∧
      |((val r : ℚ) : ℝ) - F fun k => ((val (x k) : ℚ) : ℝ)| ≤ ω + ε := by
  have hlen : vals.length = ∏ k, dims k := by simpa [Axes.size] using hG.len
  have hs := samples_valAt (.nan : F32) dims vals hlen
  obtain ⟨loc, h1, h2⟩ := C83_regular_f32 fma κ hκ hN dims starts steps vals hG _ hs hfin hnormal hnodes
    hlarge x hx hin
  have hlt : ∀ k, loc k < dims k := fun k => (h2 k).1
  have hget := hs loc hlt
  obtain ⟨v, hv1, hv2⟩ := htab loc hlt
  rw [hget] at hv1
  cases hv1
  refine ⟨_, List.mem_of_getElem? hget, h1, hvals _ (List.mem_of_getElem? hget),
    near_node hG hF hin (loc := loc) hlt (fun k => ?_) hv2⟩
  have hk : (1 + κ) * (1 / 2 ^ 24) ≤ 1 / 100 := by
    rw [mul_one_div, div_le_iff₀ (by norm_num)]; linarith
  obtain ⟨c, hc⟩ := hG.cells le_rfl fun k => val (x k)
  have hs0 : 0 ≤ val (steps k) := le_trans (by norm_num) (hnormal k)
  have h3 := mul_le_mul_of_nonneg_right hk hs0
  exact step_near (hc k) (hin k) (by linarith) (h2 k)

end

/-! ### Concrete cases -/

/-- A function with kinks. -/
noncomputable def exAbs (y : Fin 2 → ℝ) : ℝ := |y 0 - 1 / 4| + |y 1 - 2|

theorem exAbs_rat (q : Fin 2 → ℚ) :
    exAbs (fun k => (q k : ℝ)) = ((|q 0 - 1 / 4| + |q 1 - 2| : ℚ) : ℝ) := by
  simp [exAbs]

theorem exAbs_varies {dims : Fin 2 → Nat} {node : Fin 2 → Nat → ℚ} {δ : Fin 2 → ℝ} :
    VariesAtMost dims node exAbs δ (δ 0 + δ 1) := by
  intro y z _ _ h
  have h0 := abs_le.1 ((abs_abs_sub_abs_le (y 0 - 1 / 4) (z 0 - 1 / 4)).trans
    (by rw [sub_sub_sub_cancel_right]))
  have h1 := abs_le.1 ((abs_abs_sub_abs_le (y 1 - 2) (z 1 - 2)).trans
    (by rw [sub_sub_sub_cancel_right]))
  unfold exAbs
  rw [abs_le]
  constructor <;> linarith [h0.1, h0.2, h1.1, h1.2, h 0, h 1]

theorem cells_of_check {f : Format} {grids : Fin 2 → List (Ieee f)} {a b : ℚ}
    (h : ∀ k, ∀ i < (grids k).length, i + 1 < (grids k).length →
      ((grids k).map val).getD (i + 1) 0 - ((grids k).map val).getD i 0 ≤ (![a, b] : Fin 2 → ℚ) k) :
    CellsAtMost (fun k => (grids k).length) (fun k i => ((grids k).map val).getD i 0)
      ![(a : ℝ), (b : ℝ)] := by
  intro k i hi
  have := h k i (Nat.lt_of_succ_lt hi) hi
  have h' : ((((grids k).map val).getD (i + 1) 0 : ℚ) : ℝ) - (((grids k).map val).getD i 0 : ℚ) ≤
      ((![a, b] : Fin 2 → ℚ) k : ℝ) := by exact_mod_cast this
  refine h'.trans_eq ?_
  fin_cases k <;> rfl

/-- Table of `exAbs` on `exGrids64`. -/
def exAbsTab64 : List F64 := ([0, 1 / 10, 4] : List ℚ).flatMap fun a => ([1, 3] : List ℚ).map fun b =>
  q64 (|a - 1 / 4| + |b - 2|)
/-- Table of `exAbs` on `exGrids64c`. -/
def exAbsTabC64 : List F64 := ([0, 1, 3, 4] : List ℚ).flatMap fun a =>
  ([0, 1 / 2, 1, 2, 3] : List ℚ).map fun b => q64 (|a - 1 / 4| + |b - 2|)
/-- Table of `exAbs` for 0.1, 0.2, 0.3 and 1, 3. -/
def exAbsTabR64 : List F64 := ([1 / 10, 2 / 10, 3 / 10] : List ℚ).flatMap fun a =>
  ([1, 3] : List ℚ).map fun b => q64 (|a - 1 / 4| + |b - 2|)
/-- Table of `exAbs` for 0.1, …, 0.4 and 0, …, 4. -/
def exAbsTabS64 : List F64 := ([1 / 10, 2 / 10, 3 / 10, 4 / 10] : List ℚ).flatMap fun a =>
  ([0, 1, 2, 3, 4] : List ℚ).map fun b => q64 (|a - 1 / 4| + |b - 2|)

/-- Hypotheses of `C138_linear_rectilinear_f64` are satisfied. -/
example : ∃ r, multilinearRectilinearAt .flat false exGrids64 exAbsTab64 ![q64 (1 / 3), q64 (5 / 3)] =
    .ok r ∧ |((val r : ℚ) : ℝ) - exAbs fun k => ((val (![q64 (1 / 3), q64 (5 / 3)] k) : ℚ) : ℝ)| ≤
      391 / 100 + 2 + 1 / 10 ^ 11 := by
  obtain ⟨r, h1, -, h2⟩ := C138_linear_rectilinear_f64 .flat (show 0 < 2 by decide) (by norm_num) false
    exGrids64 exAbsTab64 (valid_of_check (by decide +kernel)) (by decide +kernel) 5 (by norm_num)
    (by decide +kernel) exAbs _ _ ((1 / 10 ^ 15 : ℚ) : ℝ) exAbs_varies
    (cells_of_check (a := 391 / 100) (b := 2) (by decide +kernel)) (tableOf_of_check (Fq := fun q => |q 0 - 1 / 4| + |q 1 - 2|) exAbs_rat
      (by decide +kernel))
    ![q64 (1 / 3), q64 (5 / 3)] (by decide +kernel) (by unfold InRange; decide +kernel)
  refine ⟨r, h1, h2.trans ?_⟩
  norm_num

/-- Hypotheses of `C138_linear_regular_f64` are satisfied, with nodes 0.1, 0.2, 0.3 on the first
axis. -/
example : ∃ r, multilinearRegularAt (.recursive 8) true ![3, 2] ![q64 (1 / 10), q64 1]
      ![q64 (1 / 10), q64 2] exAbsTabR64 ![q64 (2 / 7), q64 (5 / 3)] = .ok r ∧ Finite r := by
  obtain ⟨r, h1, h2, -⟩ := C138_linear_regular_f64 (.recursive 8) (show 0 < 2 ∧ 2 ≤ 8 by decide) true 4
    (by norm_num) (by norm_num) ![3, 2] ![q64 (1 / 10), q64 1] ![q64 (1 / 10), q64 2] exAbsTabR64
    (valid_of_check (by decide +kernel)) (by decide +kernel) (by decide +kernel) (by decide +kernel)
    (by decide +kernel) 5 (by norm_num) (by decide +kernel) exAbs _ ((1 / 10 ^ 15 : ℚ) : ℝ) exAbs_varies
    (tableOf_of_check (Fq := fun q => |q 0 - 1 / 4| + |q 1 - 2|) exAbs_rat
      (by decide +kernel))
    ![q64 (2 / 7), q64 (5 / 3)] (by decide +kernel) (by unfold InRange; decide +kernel)
  exact ⟨r, h1, h2⟩

/-- Hypotheses of `C138_cubic_rectilinear_f64` are satisfied. -/
example : ∃ r, multicubicRectilinearAt .flat false exGrids64c exAbsTabC64 true ![q64 (1 / 3), q64 (5 / 3)] = .ok r ∧
    |((val r : ℚ) : ℝ) - exAbs fun k => ((val (![q64 (1 / 3), q64 (5 / 3)] k) : ℚ) : ℝ)| ≤
      (5 / 3) ^ 2 * 6 + 1 / 10 ^ 8 := by
  obtain ⟨r, h1, -, h2⟩ := C138_cubic_rectilinear_f64 .flat (show 0 < 2 by decide) (by norm_num) false
    exGrids64c exAbsTabC64 true (valid_of_check (by decide +kernel)) (by decide +kernel) 6 (by norm_num)
    (by norm_num) (by decide +kernel) exAbs _ _ ((0 : ℚ) : ℝ) exAbs_varies
    (cells_of_check (a := 2) (b := 1) (by decide +kernel)) (tableOf_of_check (Fq := fun q => |q 0 - 1 / 4| + |q 1 - 2|) exAbs_rat
      (by decide +kernel))
    ![q64 (1 / 3), q64 (5 / 3)] (by decide +kernel) (by unfold InRange; decide +kernel) 2
    (by norm_num) (by norm_num)
    (fun k i hi => (show ∀ k, ∀ i < (exGrids64c k).length, i + 2 < (exGrids64c k).length →
      ((exGrids64c k).map val).getD (i + 1) 0 - ((exGrids64c k).map val).getD i 0 ≤
        2 * (((exGrids64c k).map val).getD (i + 2) 0 - ((exGrids64c k).map val).getD (i + 1) 0) ∧
      ((exGrids64c k).map val).getD (i + 2) 0 - ((exGrids64c k).map val).getD (i + 1) 0 ≤
        2 * (((exGrids64c k).map val).getD (i + 1) 0 - ((exGrids64c k).map val).getD i 0) by
      decide +kernel) k i (by omega) hi)
  refine ⟨r, h1, h2.trans ?_⟩
  norm_num

/-- Hypotheses of `C138_cubic_regular_f64` are satisfied, with nodes 0.1, …, 0.4 on the first
axis. -/
example : ∃ r, multicubicRegularAt .flat true ![4, 5] ![q64 (1 / 10), q64 0]
      ![q64 (1 / 10), q64 1] exAbsTabS64 false ![q64 (2 / 7), q64 (5 / 3)] = .ok r ∧ Finite r := by
  obtain ⟨r, h1, h2, -⟩ := C138_cubic_regular_f64 .flat (show 0 < 2 by decide) (by norm_num) true 5
    (by norm_num) (by norm_num) ![4, 5] ![q64 (1 / 10), q64 0] ![q64 (1 / 10), q64 1] exAbsTabS64 false
    (valid_of_check (by decide +kernel)) (by decide +kernel) (by decide +kernel) (by decide +kernel)
    (by decide +kernel) 5 (by norm_num) (by norm_num) (by decide +kernel) exAbs _
    ((1 / 10 ^ 15 : ℚ) : ℝ) exAbs_varies (tableOf_of_check (Fq := fun q => |q 0 - 1 / 4| + |q 1 - 2|) exAbs_rat
      (by decide +kernel))
    ![q64 (2 / 7), q64 (5 / 3)] (by decide +kernel) (by unfold InRange; decide +kernel)
  exact ⟨r, h1, h2⟩

/-- Hypotheses of `C138_nearest_rectilinear_f64` are satisfied. -/
example : ∃ r ∈ exAbsTab64, nearestRectilinearAt exGrids64 exAbsTab64 ![q64 (1 / 3), q64 (5 / 3)] =
    .ok r ∧ |((val r : ℚ) : ℝ) - exAbs fun k => ((val (![q64 (1 / 3), q64 (5 / 3)] k) : ℚ) : ℝ)| ≤
      391 / 100 + 2 + 1 / 10 ^ 15 := by
  obtain ⟨r, h0, h1, -, h2⟩ := C138_nearest_rectilinear_f64 exGrids64 exAbsTab64
    (valid_of_check (by decide +kernel)) (by decide +kernel) (by decide +kernel) exAbs _ _
    ((1 / 10 ^ 15 : ℚ) : ℝ) exAbs_varies (cells_of_check (a := 391 / 100) (b := 2) (by decide +kernel))
    (tableOf_of_check (Fq := fun q => |q 0 - 1 / 4| + |q 1 - 2|) exAbs_rat
      (by decide +kernel)) ![q64 (1 / 3), q64 (5 / 3)] (by decide +kernel)
    (by unfold InRange; decide +kernel)
  refine ⟨r, h0, h1, h2.trans ?_⟩
  norm_num

/-- Hypotheses of `C138_nearest_regular_f64` are satisfied. -/
example : ∃ r ∈ exAbsTabR64, nearestRegularAt true ![3, 2] ![q64 (1 / 10), q64 1]
      ![q64 (1 / 10), q64 2] exAbsTabR64 ![q64 (2 / 7), q64 (5 / 3)] = .ok r ∧ Finite r := by
  obtain ⟨r, h0, h1, h2, -⟩ := C138_nearest_regular_f64 true 4
    (by norm_num) (by norm_num) ![3, 2] ![q64 (1 / 10), q64 1] ![q64 (1 / 10), q64 2] exAbsTabR64
    (valid_of_check (by decide +kernel)) (by decide +kernel) (by decide +kernel) (by decide +kernel)
    (by decide +kernel) (by decide +kernel) exAbs _ ((1 / 10 ^ 15 : ℚ) : ℝ) exAbs_varies
    (tableOf_of_check (Fq := fun q => |q 0 - 1 / 4| + |q 1 - 2|) exAbs_rat
      (by decide +kernel))
    ![q64 (2 / 7), q64 (5 / 3)] (by decide +kernel) (by unfold InRange; decide +kernel)
  exact ⟨r, h0, h1, h2⟩

/-- Table of `exAbs` on `exGrids32`. -/
def exAbsTab32 : List F32 := ([0, 1 / 10, 4] : List ℚ).flatMap fun a => ([1, 3] : List ℚ).map fun b =>
  q32 (|a - 1 / 4| + |b - 2|)
/-- Table of `exAbs` on `exGrids32c`. -/
def exAbsTabC32 : List F32 := ([0, 1, 3, 4] : List ℚ).flatMap fun a =>
  ([0, 1 / 2, 1, 2, 3] : List ℚ).map fun b => q32 (|a - 1 / 4| + |b - 2|)
/-- Table of `exAbs` for 0.1, 0.2, 0.3 and 1, 3. -/
def exAbsTabR32 : List F32 := ([1 / 10, 2 / 10, 3 / 10] : List ℚ).flatMap fun a =>
  ([1, 3] : List ℚ).map fun b => q32 (|a - 1 / 4| + |b - 2|)
/-- Table of `exAbs` for 0.1, …, 0.4 and 0, …, 4. -/
def exAbsTabS32 : List F32 := ([1 / 10, 2 / 10, 3 / 10, 4 / 10] : List ℚ).flatMap fun a =>
  ([0, 1, 2, 3, 4] : List ℚ).map fun b => q32 (|a - 1 / 4| + |b - 2|)

/-- Hypotheses of `C138_linear_rectilinear_f32` are satisfied. -/
example : ∃ r, multilinearRectilinearAt .flat false exGrids32 exAbsTab32 ![q32 (1 / 3), q32 (5 / 3)] =
    .ok r ∧ |((val r : ℚ) : ℝ) - exAbs fun k => ((val (![q32 (1 / 3), q32 (5 / 3)] k) : ℚ) : ℝ)| ≤
      391 / 100 + 2 + 1 / 10 ^ 2 := by
  obtain ⟨r, h1, -, h2⟩ := C138_linear_rectilinear_f32 .flat (show 0 < 2 by decide) (by norm_num) false
    exGrids32 exAbsTab32 (valid_of_check (by decide +kernel)) (by decide +kernel) 5 (by norm_num)
    (by decide +kernel) exAbs _ _ ((1 / 10 ^ 6 : ℚ) : ℝ) exAbs_varies
    (cells_of_check (a := 391 / 100) (b := 2) (by decide +kernel)) (tableOf_of_check (Fq := fun q => |q 0 - 1 / 4| + |q 1 - 2|) exAbs_rat
      (by decide +kernel))
    ![q32 (1 / 3), q32 (5 / 3)] (by decide +kernel) (by unfold InRange; decide +kernel)
  refine ⟨r, h1, h2.trans ?_⟩
  norm_num

/-- Hypotheses of `C138_linear_regular_f32` are satisfied, with nodes 0.1, 0.2, 0.3 on the first
axis. -/
example : ∃ r, multilinearRegularAt (.recursive 8) true ![3, 2] ![q32 (1 / 10), q32 1]
      ![q32 (1 / 10), q32 2] exAbsTabR32 ![q32 (2 / 7), q32 (5 / 3)] = .ok r ∧ Finite r := by
  obtain ⟨r, h1, h2, -⟩ := C138_linear_regular_f32 (.recursive 8) (show 0 < 2 ∧ 2 ≤ 8 by decide) true 4
    (by norm_num) (by norm_num) ![3, 2] ![q32 (1 / 10), q32 1] ![q32 (1 / 10), q32 2] exAbsTabR32
    (valid_of_check (by decide +kernel)) (by decide +kernel) (by decide +kernel) (by decide +kernel)
    (by decide +kernel) 5 (by norm_num) (by decide +kernel) exAbs _ ((1 / 10 ^ 6 : ℚ) : ℝ) exAbs_varies
    (tableOf_of_check (Fq := fun q => |q 0 - 1 / 4| + |q 1 - 2|) exAbs_rat
      (by decide +kernel))
    ![q32 (2 / 7), q32 (5 / 3)] (by decide +kernel) (by unfold InRange; decide +kernel)
  exact ⟨r, h1, h2⟩

/-- Hypotheses of `C138_cubic_rectilinear_f32` are satisfied. -/
example : ∃ r, multicubicRectilinearAt .flat false exGrids32c exAbsTabC32 true ![q32 (1 / 3), q32 (5 / 3)] = .ok r ∧
    |((val r : ℚ) : ℝ) - exAbs fun k => ((val (![q32 (1 / 3), q32 (5 / 3)] k) : ℚ) : ℝ)| ≤
      (5 / 3) ^ 2 * 6 + 1 / 10 := by
  obtain ⟨r, h1, -, h2⟩ := C138_cubic_rectilinear_f32 .flat (show 0 < 2 by decide) (by norm_num) false
    exGrids32c exAbsTabC32 true (valid_of_check (by decide +kernel)) (by decide +kernel) 6 (by norm_num)
    (by norm_num) (by decide +kernel) exAbs _ _ ((0 : ℚ) : ℝ) exAbs_varies
    (cells_of_check (a := 2) (b := 1) (by decide +kernel)) (tableOf_of_check (Fq := fun q => |q 0 - 1 / 4| + |q 1 - 2|) exAbs_rat
      (by decide +kernel))
    ![q32 (1 / 3), q32 (5 / 3)] (by decide +kernel) (by unfold InRange; decide +kernel) 2
    (by norm_num) (by norm_num)
    (fun k i hi => (show ∀ k, ∀ i < (exGrids32c k).length, i + 2 < (exGrids32c k).length →
      ((exGrids32c k).map val).getD (i + 1) 0 - ((exGrids32c k).map val).getD i 0 ≤
        2 * (((exGrids32c k).map val).getD (i + 2) 0 - ((exGrids32c k).map val).getD (i + 1) 0) ∧
      ((exGrids32c k).map val).getD (i + 2) 0 - ((exGrids32c k).map val).getD (i + 1) 0 ≤
        2 * (((exGrids32c k).map val).getD (i + 1) 0 - ((exGrids32c k).map val).getD i 0) by
      decide +kernel) k i (by omega) hi)
  refine ⟨r, h1, h2.trans ?_⟩
  norm_num

/-- Hypotheses of `C138_cubic_regular_f32` are satisfied, with nodes 0.1, …, 0.4 on the first
axis. -/
example : ∃ r, multicubicRegularAt .flat true ![4, 5] ![q32 (1 / 10), q32 0]
      ![q32 (1 / 10), q32 1] exAbsTabS32 false ![q32 (2 / 7), q32 (5 / 3)] = .ok r ∧ Finite r := by
  obtain ⟨r, h1, h2, -⟩ := C138_cubic_regular_f32 .flat (show 0 < 2 by decide) (by norm_num) true 5
    (by norm_num) (by norm_num) ![4, 5] ![q32 (1 / 10), q32 0] ![q32 (1 / 10), q32 1] exAbsTabS32 false
    (valid_of_check (by decide +kernel)) (by decide +kernel) (by decide +kernel) (by decide +kernel)
    (by decide +kernel) 5 (by norm_num) (by norm_num) (by decide +kernel) exAbs _
    ((1 / 10 ^ 6 : ℚ) : ℝ) exAbs_varies (tableOf_of_check (Fq := fun q => |q 0 - 1 / 4| + |q 1 - 2|) exAbs_rat
      (by decide +kernel))
    ![q32 (2 / 7), q32 (5 / 3)] (by decide +kernel) (by unfold InRange; decide +kernel)
  exact ⟨r, h1, h2⟩

/-- Hypotheses of `C138_nearest_rectilinear_f32` are satisfied. -/
example : ∃ r ∈ exAbsTab32, nearestRectilinearAt exGrids32 exAbsTab32 ![q32 (1 / 3), q32 (5 / 3)] =
    .ok r ∧ |((val r : ℚ) : ℝ) - exAbs fun k => ((val (![q32 (1 / 3), q32 (5 / 3)] k) : ℚ) : ℝ)| ≤
      391 / 100 + 2 + 1 / 10 ^ 6 := by
  obtain ⟨r, h0, h1, -, h2⟩ := C138_nearest_rectilinear_f32 exGrids32 exAbsTab32
    (valid_of_check (by decide +kernel)) (by decide +kernel) (by decide +kernel) exAbs _ _
    ((1 / 10 ^ 6 : ℚ) : ℝ) exAbs_varies (cells_of_check (a := 391 / 100) (b := 2) (by decide +kernel))
    (tableOf_of_check (Fq := fun q => |q 0 - 1 / 4| + |q 1 - 2|) exAbs_rat
      (by decide +kernel)) ![q32 (1 / 3), q32 (5 / 3)] (by decide +kernel)
    (by unfold InRange; decide +kernel)
  refine ⟨r, h0, h1, h2.trans ?_⟩
  norm_num

/-- Hypotheses of `C138_nearest_regular_f32` are satisfied. -/
example : ∃ r ∈ exAbsTabR32, nearestRegularAt true ![3, 2] ![q32 (1 / 10), q32 1]
      ![q32 (1 / 10), q32 2] exAbsTabR32 ![q32 (2 / 7), q32 (5 / 3)] = .ok r ∧ Finite r := by
  obtain ⟨r, h0, h1, h2, -⟩ := C138_nearest_regular_f32 true 4
    (by norm_num) (by norm_num) ![3, 2] ![q32 (1 / 10), q32 1] ![q32 (1 / 10), q32 2] exAbsTabR32
    (valid_of_check (by decide +kernel)) (by decide +kernel) (by decide +kernel) (by decide +kernel)
    (by decide +kernel) (by decide +kernel) exAbs _ ((1 / 10 ^ 6 : ℚ) : ℝ) exAbs_varies
    (tableOf_of_check (Fq := fun q => |q 0 - 1 / 4| + |q 1 - 2|) exAbs_rat
      (by decide +kernel))
    ![q32 (2 / 7), q32 (5 / 3)] (by decide +kernel) (by unfold InRange; decide +kernel)
  exact ⟨r, h0, h1, h2⟩

end Interpn
