import Verif.Props.Accuracy
import Verif.Props.Layout
import Mathlib.Data.Rat.Cast.Order
import Mathlib.Algebra.Order.Field.Rat

/-! Exact interpolation of rational data is the same over the rationals and over the reals; error
of interpolating an inexact table of a smooth function. -/

set_option autoImplicit false

namespace Interpn
open FloatOps
attribute [local instance] exactOps

variable {N : Nat}

/-- The same axes with real coordinates. -/
def Axes.toReal : Axes ℚ N → Axes ℝ N
  | .regular dims starts steps => .regular dims (fun k => starts k) (fun k => steps k)
  | .rectilinear grids => .rectilinear fun k => (grids k).map fun a : ℚ => (a : ℝ)

theorem Axes.toReal_size (G : Axes ℚ N) (k : Fin N) : G.toReal.size k = G.size k := by
  cases G <;> simp [Axes.toReal, Axes.size]

theorem Axes.toReal_node (G : Axes ℚ N) (k : Fin N) (i : Nat) :
    G.toReal.node k i = (G.node k i : ℝ) := by
  cases G with
  | regular dims starts steps => simp [Axes.toReal, Axes.node]
  | rectilinear grids =>
    simp only [Axes.toReal, Axes.node]
    rw [List.getD_eq_getElem?_getD, List.getD_eq_getElem?_getD, List.getElem?_map]
    cases (grids k)[i]? <;> simp

theorem Axes.Valid.toReal {G : Axes ℚ N} {m : Nat} {vals : List ℚ} (h : G.Valid m vals)
    {vals' : List ℝ} (hl : vals'.length = vals.length) : G.toReal.Valid m vals' where
  slice := by have := h.slice; unfold IsSlice at this ⊢; omega
  len := by simp only [hl, h.len, Axes.toReal_size]
  big k := by rw [Axes.toReal_size]; exact h.big k
  increasing k i hi := by
    rw [Axes.toReal_node, Axes.toReal_node]
    rw [Axes.toReal_size] at hi
    exact_mod_cast h.increasing k i hi

theorem InRange.toReal {G : Axes ℚ N} {k : Fin N} {x : ℚ} (h : InRange (G.size k) (G.node k) x) :
    InRange (G.toReal.size k) (G.toReal.node k) (x : ℝ) := by
  unfold InRange at *
  rw [Axes.toReal_node, Axes.toReal_node, Axes.toReal_size]
  exact_mod_cast h

theorem InCell.toReal {G : Axes ℚ N} {k : Fin N} {x : ℚ} {i : Nat}
    (h : InCell (G.size k) (G.node k) x i) :
    InCell (G.toReal.size k) (G.toReal.node k) (x : ℝ) i := by
  unfold InCell at *
  rw [Axes.toReal_node, Axes.toReal_node, Axes.toReal_size]
  exact_mod_cast h

theorem MeshRatio.toReal {G : Axes ℚ N} {k : Fin N} {ρ : ℚ}
    (h : MeshRatio (G.size k) (G.node k) ρ) :
    MeshRatio (G.toReal.size k) (G.toReal.node k) (ρ : ℝ) := by
  intro i hi
  simp only [Axes.toReal_node]
  rw [Axes.toReal_size] at hi
  exact_mod_cast h i hi

theorem linPiece_cast (p f : Nat → ℚ) (i : Nat) (x : ℚ) :
    ((linPiece p f i x : ℚ) : ℝ) =
      linPiece (fun j => (p j : ℝ)) (fun j => (f j : ℝ)) i (x : ℝ) := by
  simp only [linPiece]
  push_cast
  rfl

theorem nodeSlope_cast (n : Nat) (p f : Nat → ℚ) (i : Nat) :
    ((nodeSlope n p f i : ℚ) : ℝ) =
      nodeSlope n (fun j => (p j : ℝ)) (fun j => (f j : ℝ)) i := by
  simp only [nodeSlope]
  split
  · push_cast; rfl
  · split <;> (push_cast; rfl)

theorem hermiteCubic_cast (a b y0 y1 m0 m1 x : ℚ) :
    ((hermiteCubic a b y0 y1 m0 m1 x : ℚ) : ℝ) =
      hermiteCubic (a : ℝ) b y0 y1 m0 m1 x := by
  simp only [hermiteCubic]
  push_cast
  rfl

theorem cubicPiece_cast (n : Nat) (p f : Nat → ℚ) (lin : Bool) (i : Nat) (x : ℚ) :
    ((cubicPiece n p f lin i x : ℚ) : ℝ) =
      cubicPiece n (fun j => (p j : ℝ)) (fun j => (f j : ℝ)) lin i (x : ℝ) := by
  simp only [cubicPiece, Rat.cast_lt]
  split
  · push_cast [nodeSlope_cast]; rfl
  · split
    · push_cast [nodeSlope_cast]; rfl
    · rw [hermiteCubic_cast, nodeSlope_cast, nodeSlope_cast]

theorem Samples.toReal {dims : Fin N → Nat} {vals : List ℚ} {g : (Fin N → Nat) → ℚ}
    (h : Samples dims vals g) :
    Samples dims (vals.map fun a : ℚ => (a : ℝ)) fun loc => (g loc : ℝ) := by
  intro loc hl
  rw [List.getElem?_map, h loc hl]; rfl

/-- Multilinear interpolation of rational data, over the reals. -/
theorem multilinearAt_toReal (e : Evaluator) (he : e.Fits N) (fma : Bool) (G : Axes ℚ N)
    (vals : List ℚ) (hG : G.Valid 2 vals) (x : Fin N → ℚ)
    (hin : ∀ k, InRange (G.size k) (G.node k) (x k)) (y : ℚ)
    (hy : multilinearAt e fma G vals x = .ok y) :
    multilinearAt e fma G.toReal (vals.map fun a : ℚ => (a : ℝ)) (fun k => (x k : ℝ)) =
      .ok (y : ℝ) := by
  obtain ⟨c, hc⟩ := hG.cells le_rfl x
  have hs := samples_valAt 0 _ _ hG.len
  have hG' := hG.toReal (vals' := vals.map fun a : ℚ => (a : ℝ)) (by simp)
  rw [multilinearAt_eq e he fma G vals hG _ hs x (hG.inRange_fits le_rfl hin _ (by decide)) c hc] at hy
  rw [multilinearAt_eq e he fma G.toReal _ hG' _
    (by have := hs.toReal; rwa [← funext (Axes.toReal_size G)] at this) _
    (hG'.inRange_fits le_rfl (fun k => (hin k).toReal) _ (by decide)) c (fun k => (hc k).toReal)]
  cases hy
  congr 1
  symm
  refine axisByAxis_rel (fun (a : ℚ) (b : ℝ) => (a : ℝ) = b) (fun _ _ => True) _ _ _ _ ?_ ?_
  · intro k f f' hf
    rw [linPiece_cast, funext (Axes.toReal_node G k)]
    simp only [hf]
  · intro loc _; simp only [funext (Axes.toReal_size G)]

/-- Multicubic interpolation of rational data, over the reals. -/
theorem multicubicAt_toReal (e : Evaluator) (he : e.Fits N) (fma : Bool) (G : Axes ℚ N)
    (vals : List ℚ) (lin : Bool) (hG : G.Valid 4 vals) (x : Fin N → ℚ)
    (hin : ∀ k, InRange (G.size k) (G.node k) (x k)) (y : ℚ)
    (hy : multicubicAt e fma G vals lin x = .ok y) :
    multicubicAt e fma G.toReal (vals.map fun a : ℚ => (a : ℝ)) lin (fun k => (x k : ℝ)) =
      .ok (y : ℝ) := by
  obtain ⟨c, hc⟩ := hG.cells (by omega) x
  have hs := samples_valAt 0 _ _ hG.len
  have hG' := hG.toReal (vals' := vals.map fun a : ℚ => (a : ℝ)) (by simp)
  rw [multicubicAt_eq e he fma G vals lin hG _ hs x (hG.inRange_fits (by omega) hin _ (by decide)) c
    hc] at hy
  rw [multicubicAt_eq e he fma G.toReal _ lin hG' _
    (by have := hs.toReal; rwa [← funext (Axes.toReal_size G)] at this) _
    (hG'.inRange_fits (by omega) (fun k => (hin k).toReal) _ (by decide)) c
    (fun k => (hc k).toReal)]
  cases hy
  congr 1
  symm
  refine axisByAxis_rel (fun (a : ℚ) (b : ℝ) => (a : ℝ) = b) (fun _ _ => True) _ _ _ _ ?_ ?_
  · intro k f f' hf
    rw [cubicPiece_cast, funext (Axes.toReal_node G k), Axes.toReal_size]
    simp only [hf]
  · intro loc _; simp only [funext (Axes.toReal_size G)]

/-- There is a table of any function on the nodes. -/
theorem exists_table {T : Type} (dims : Fin N → Nat) (g : (Fin N → Nat) → T) :
    ∃ vals : List T, vals.length = ∏ k, dims k ∧ Samples dims vals g := by
  obtain ⟨h1, h2, h3⟩ := C46_bijection dims
  choose! loc hl hi using h3
  refine ⟨(List.range (∏ k, dims k)).map fun i => g (loc i), by simp, fun a ha => ?_⟩
  rw [List.getElem?_map, List.getElem?_range (h1 a ha), Option.map_some,
    h2 _ a (hl _ (h1 a ha)) ha (hi _ (h1 a ha))]

/-- Entries of two tables that differ by at most `ε` at every node. -/
theorem table_close {dims : Fin N → Nat} {vals vals' : List ℝ} {g g' : (Fin N → Nat) → ℝ}
    (hl : vals.length = ∏ k, dims k) (hg : Samples dims vals g) (hg' : Samples dims vals' g')
    {ε : ℝ} (h : ∀ loc : Fin N → Nat, (∀ k, loc k < dims k) → |g loc - g' loc| ≤ ε)
    (i : Nat) (hi : i < vals.length) (hi' : i < vals'.length) : |vals[i] - vals'[i]| ≤ ε := by
  obtain ⟨loc, h1, rfl⟩ := (C46_bijection dims).2.2 i (hl ▸ hi)
  have e1 := hg loc h1
  have e2 := hg' loc h1
  rw [List.getElem?_eq_getElem hi] at e1
  rw [List.getElem?_eq_getElem hi'] at e2
  rw [Option.some.inj e1, Option.some.inj e2]
  exact h loc h1

/-- Exact multilinear interpolation of an inexact table of a function with bounded second
derivatives. -/
theorem linear_total (e : Evaluator) (he : e.Fits N) (fma : Bool) (G : Axes ℚ N) (vals : List ℚ)
    (hG : G.Valid 2 vals) (F : (Fin N → ℝ) → ℝ) (D h : Fin N → ℝ)
    (hF : ∀ k y, (∀ j, (G.node j 0 : ℝ) ≤ y j ∧ y j ≤ (G.node j (G.size j - 1) : ℝ)) →
      SecondDerivBounded (fun z => F (Function.update y k z)) (G.node k 0)
        (G.node k (G.size k - 1)) (D k))
    (hh : ∀ k i, i + 1 < G.size k → (G.node k (i + 1) : ℝ) - G.node k i ≤ h k) (ε : ℝ)
    (g : (Fin N → Nat) → ℚ) (hg : Samples G.size vals g)
    (hε : ∀ loc : Fin N → Nat, (∀ k, loc k < G.size k) →
      |(g loc : ℝ) - F fun k => (G.node k (loc k) : ℝ)| ≤ ε)
    (x : Fin N → ℚ) (hin : ∀ k, InRange (G.size k) (G.node k) (x k)) (y : ℚ)
    (hy : multilinearAt e fma G vals x = .ok y) :
    |(y : ℝ) - F fun k => (x k : ℝ)| ≤ ∑ k, D k / 8 * h k ^ 2 + ε := by
  have hyR := multilinearAt_toReal e he fma G vals hG x hin y hy
  obtain ⟨vals', hl', hs'⟩ := exists_table G.size fun loc => F fun k => (G.node k (loc k) : ℝ)
  have hG1 := hG.toReal (vals' := vals.map fun a : ℚ => (a : ℝ)) (by simp)
  have hG2 := hG.toReal (vals' := vals') (by rw [hl', hG.len])
  have hin' := fun k => (hin k).toReal
  have hsz := funext (Axes.toReal_size G)
  have hrep := hG1.inRange_fits le_rfl hin' isizeMin (by decide)
  obtain ⟨c, hc⟩ := hG.cells le_rfl x
  obtain ⟨y2, h1, h2⟩ := C64_accuracy e he fma G.toReal vals' hG2 F D
    (fun k w hw => by
      rw [Axes.toReal_node, Axes.toReal_node, Axes.toReal_size]
      refine hF k w fun j => ?_
      have := hw j
      unfold InRange at this
      rwa [Axes.toReal_node, Axes.toReal_node, Axes.toReal_size] at this)
    (by rw [hsz]; simpa only [Axes.toReal_node] using hs') _ hrep hin' c (fun k => (hc k).toReal)
  obtain ⟨z1, z2, e1, e2, h3⟩ := C22_stability e he fma G.toReal _ vals' hG1 hG2 ε
    (table_close (by simp [hG.len]) hg.toReal hs' hε) _ hrep hin'
  rw [hyR] at e1
  rw [h1] at e2
  cases e1; cases e2
  have h4 : ∑ k, D k / 8 * (G.toReal.node k (c k + 1) - G.toReal.node k (c k)) ^ 2 ≤
      ∑ k, D k / 8 * h k ^ 2 := by
    refine Finset.sum_le_sum fun k _ => ?_
    have hi := (hc k).1
    have hinc : (G.node k (c k) : ℝ) < G.node k (c k + 1) := by
      exact_mod_cast hG.increasing k _ hi
    have hD : 0 ≤ D k := by
      obtain ⟨d1, d2, hd⟩ := hF k (fun j => (x j : ℝ)) fun j => by
        have := hin j; unfold InRange at this; exact_mod_cast this
      have hx := hin k
      unfold InRange at hx
      exact (abs_nonneg _).trans (hd (x k) ⟨by exact_mod_cast hx.1, by exact_mod_cast hx.2⟩).2.2
    rw [Axes.toReal_node, Axes.toReal_node]
    have := hh k _ hi
    have h0 : 0 ≤ (G.node k (c k + 1) : ℝ) - G.node k (c k) := by linarith
    gcongr
  have := abs_sub_le (y : ℝ) y2 (F fun k => (x k : ℝ))
  linarith

/-- Exact multicubic interpolation of an inexact table of a function with bounded third
derivatives. -/
theorem cubic_total (e : Evaluator) (he : e.Fits N) (fma : Bool) (G : Axes ℚ N) (vals : List ℚ)
    (lin : Bool) (hG : G.Valid 4 vals) (F : (Fin N → ℝ) → ℝ) (D h : Fin N → ℝ)
    (hF : ∀ k y, (∀ j, (G.node j 0 : ℝ) ≤ y j ∧ y j ≤ (G.node j (G.size j - 1) : ℝ)) →
      ThirdDerivBounded (fun z => F (Function.update y k z)) (G.node k 0)
        (G.node k (G.size k - 1)) (D k))
    (hh : ∀ k i, i + 1 < G.size k → (G.node k (i + 1) : ℝ) - G.node k i ≤ h k)
    (ρ : ℚ) (hρ : ∀ k, MeshRatio (G.size k) (G.node k) ρ) (ε : ℝ)
    (g : (Fin N → Nat) → ℚ) (hg : Samples G.size vals g)
    (hε : ∀ loc : Fin N → Nat, (∀ k, loc k < G.size k) →
      |(g loc : ℝ) - F fun k => (G.node k (loc k) : ℝ)| ≤ ε)
    (x : Fin N → ℚ) (hin : ∀ k, InRange (G.size k) (G.node k) (x k)) (y : ℚ)
    (hy : multicubicAt e fma G vals lin x = .ok y) :
    |(y : ℝ) - F fun k => (x k : ℝ)| ≤ (1 + (ρ : ℝ) ^ 2 / (2 * (1 + ρ))) ^ (N - 1) *
        ∑ k, (1 + 9 * ((ρ : ℝ) ^ 2 / (4 * (1 + ρ)))) / 6 * (D k * h k ^ 3) +
      (1 + (ρ : ℝ) ^ 2 / (2 * (1 + ρ))) ^ N * ε := by
  have hyR := multicubicAt_toReal e he fma G vals lin hG x hin y hy
  obtain ⟨vals', hl', hs'⟩ := exists_table G.size fun loc => F fun k => (G.node k (loc k) : ℝ)
  have hG1 := hG.toReal (vals' := vals.map fun a : ℚ => (a : ℝ)) (by simp)
  have hG2 := hG.toReal (vals' := vals') (by rw [hl', hG.len])
  have hin' := fun k => (hin k).toReal
  have hsz := funext (Axes.toReal_size G)
  have hrep := hG1.inRange_fits (by omega) hin' (isizeMin + 1) (by decide)
  have hρ' := fun k => (hρ k).toReal
  obtain ⟨y2, h1, h2⟩ := C65_accuracy e he fma G.toReal vals' lin hG2 F D h
    (fun k w hw => by
      rw [Axes.toReal_node, Axes.toReal_node, Axes.toReal_size]
      refine hF k w fun j => ?_
      have := hw j
      unfold InRange at this
      rwa [Axes.toReal_node, Axes.toReal_node, Axes.toReal_size] at this)
    (by rw [hsz]; simpa only [Axes.toReal_node] using hs')
    (fun k i hi => by
      rw [Axes.toReal_node, Axes.toReal_node]; exact hh k i (by rwa [Axes.toReal_size] at hi))
    ρ hρ' _ hrep hin'
  obtain ⟨z1, z2, e1, e2, h3⟩ := C63_stability e he fma G.toReal _ vals' lin hG1 hG2 ε
    (table_close (by simp [hG.len]) hg.toReal hs' hε) ρ hρ' _ hrep hin'
  rw [hyR] at e1
  rw [h1] at e2
  cases e1; cases e2
  have := abs_sub_le (y : ℝ) y2 (F fun k => (x k : ℝ))
  linarith

end Interpn
