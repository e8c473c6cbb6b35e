import Verif.Props.IeeeAccuracy
import Verif.Props.IeeeCubic
import Verif.Props.GridKinds
import Verif.Props.Symmetry

/-! Auxiliary facts for C102. -/

set_option autoImplicit false
set_option exponentiation.threshold 1100

namespace Interpn.Variants
open FloatOps Ieee

section
variable {N : Nat} {K : Type} [Field K] [LinearOrder K] [IsStrictOrderedRing K] [FloorRing K]

theorem linear_indep (e e' : Evaluator) (he : e.Fits N) (he' : e'.Fits N) (fma fma' : Bool)
    (G : Axes K N) (vals : List K) (hG : G.Valid 2 vals) (x : Fin N → K) :
    multilinearAt e fma G vals x = multilinearAt e' fma' G vals x := by
  by_cases hx : G.Representable x
  · obtain ⟨c, hc⟩ := hG.cells le_rfl x
    have hg := samples_valAt (0 : K) _ _ hG.len
    rw [multilinearAt_eq e he fma G vals hG _ hg x hx c hc,
      multilinearAt_eq e' he' fma' G vals hG _ hg x hx c hc]
  · rw [multilinearAt_err e he fma G vals hG x hx, multilinearAt_err e' he' fma' G vals hG x hx]

theorem cubic_indep (e e' : Evaluator) (he : e.Fits N) (he' : e'.Fits N) (fma fma' : Bool)
    (G : Axes K N) (vals : List K) (lin : Bool) (hG : G.Valid 4 vals) (x : Fin N → K)
    (hin : ∀ k, InRange (G.size k) (G.node k) (x k)) :
    multicubicAt e fma G vals lin x = multicubicAt e' fma' G vals lin x := by
  obtain ⟨c, hc⟩ := hG.cells (by omega) x
  have hg := samples_valAt (0 : K) _ _ hG.len
  have hx := hG.inRange_fits (by omega) hin (-(2 ^ 63) + 1) (by decide)
  rw [multicubicAt_eq e he fma G vals lin hG _ hg x hx c hc,
    multicubicAt_eq e' he' fma' G vals lin hG _ hg x hx c hc]

end

theorem close {a b y A B C : ℚ} (h1 : |a - y| ≤ A) (h2 : |b - y| ≤ B) (h : A + B ≤ C) :
    |a - b| ≤ C := by
  have e : a - b = (a - y) - (b - y) := by ring
  rw [e]
  exact (abs_sub _ _).trans (by linarith)

theorem map_transposed {N : Nat} {f : Format} {σ : Equiv.Perm (Fin N)} {dims : Fin N → Nat}
    {vals vals' : List (Ieee f)} (h : Transposed σ dims vals vals') :
    Transposed σ dims (vals.map val) (vals'.map val) := by
  refine ⟨by simpa using h.1, fun loc hl => ?_⟩
  rw [List.getElem?_map, List.getElem?_map, h.2 loc hl]

theorem rect_inRange {N : Nat} {f : Format} {grids : Fin N → List (Ieee f)}
    {x : Fin N → Ieee f}
    (hin : ∀ k, InRange (grids k).length (fun i => ((grids k).map val).getD i 0) (val (x k))) :
    ∀ k, InRange ((Axes.rectilinear fun k => (grids k).map val).size k)
      ((Axes.rectilinear fun k => (grids k).map val).node k) (val (x k)) := by
  intro k
  have := hin k
  rw [← List.length_map (f := val)] at this
  exact this

theorem same_getD {f : Format} {g : List (Ieee f)} {n : Nat} {s p : ℚ}
    (h : g.map val = (List.range n).map fun i : Nat => s + p * (i : ℚ)) {i : Nat} (hi : i < n) :
    (g.map val).getD i 0 = s + p * (i : ℚ) := by
  rw [h, List.getD_eq_getElem?_getD, List.getElem?_map, List.getElem?_range hi]
  rfl

theorem same_length {f : Format} {g : List (Ieee f)} {n : Nat} {s p : ℚ}
    (h : g.map val = (List.range n).map fun i : Nat => s + p * (i : ℚ)) : g.length = n := by
  have := congrArg List.length h
  simpa using this

theorem same_inRange {f : Format} {g : List (Ieee f)} {n : Nat} {s p x : ℚ}
    (h : g.map val = (List.range n).map fun i : Nat => s + p * (i : ℚ)) (hn : 2 ≤ n)
    (hx : InRange n (fun i => s + p * (i : ℚ)) x) :
    InRange g.length (fun i => (g.map val).getD i 0) x := by
  rw [same_length h]
  unfold InRange at *
  simp only at hx ⊢
  rw [same_getD h (by omega), same_getD h (by omega)]
  exact hx

theorem same_mesh {f : Format} {g : List (Ieee f)} {n : Nat} {s p : ℚ}
    (h : g.map val = (List.range n).map fun i : Nat => s + p * (i : ℚ)) :
    MeshRatio g.length (fun i => (g.map val).getD i 0) 1 := by
  rw [same_length h]
  intro i hi
  simp only
  rw [same_getD h (by omega), same_getD h (by omega), same_getD h (by omega)]
  push_cast
  constructor <;> linarith

theorem transposed_of_check {K : Type} {σ : Equiv.Perm (Fin 2)} {dims : Fin 2 → Nat}
    {vals vals' : List K}
    (h : vals'.length = vals.length ∧ ∀ i < dims 0, ∀ j < dims 1,
      vals'[cIndex (fun k => dims (σ k)) (fun k => ![i, j] (σ k))]? = vals[cIndex dims ![i, j]]?) :
    Transposed σ dims vals vals' := by
  refine ⟨h.1, fun loc hl => ?_⟩
  have := h.2 (loc 0) (hl 0) (loc 1) (hl 1)
  have e : ![loc 0, loc 1] = loc := by funext k; match k with | 0 => rfl | 1 => rfl
  rwa [e] at this

end Interpn.Variants
