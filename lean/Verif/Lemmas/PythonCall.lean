import Verif.Lemmas.DetectAxis
import Verif.Props.DetectRegular

/-! The Python function `interpn` without `out`, `assume_regular` and `check_bounds`: what holds of
every point, whichever routine is chosen, holds of every entry of the returned array. -/

set_option autoImplicit false

namespace Interpn
open FloatOps Ieee

section
variable {f : Format} {N : Nat}

theorem interpn_of_points (fma : Bool) (dt : Dtype) (hdt : dt ≠ .other) (method : PyMethod)
    (lin : Bool) (atol : Ieee f) (h1 : 1 ≤ N) (h8 : N ≤ 8) (grids : Fin N → List (Ieee f))
    (hlen : ∀ k, 2 ≤ (grids k).length) (vals : List (Ieee f))
    (obs : Fin N → List (Ieee f)) (m : Nat) (hobs : ∀ k, (obs k).length = m)
    (P : (Fin N → Ieee f) → Ieee f → Prop)
    (one : (Fin N → Ieee f) → Res (Ieee f))
    (hreg : (∀ k, UniformSpacing (grids k)) →
      BatchSpec one (fun x out => method.runRegular fma (List.ofFn fun k => (grids k).length)
        (List.ofFn fun k => (grids k).getD 0 zero)
        (List.ofFn fun k => (grids k).getD 1 zero -. (grids k).getD 0 zero) vals lin (List.ofFn x)
        out))
    (hrect : ¬ (∀ k, UniformSpacing (grids k)) →
      BatchSpec one (fun x out => method.runRectilinear fma (List.ofFn grids) vals lin (List.ofFn x)
        out))
    (hP : ∀ pt, (∀ k, pt k ∈ obs k) → ∃ r, one pt = .ok r ∧ P pt r) :
    ∃ reg res, pyInterpn fma dt (List.ofFn obs) (List.ofFn grids) vals method.name none lin false
        false atol = .ok (⟨method.name, reg, dt⟩, res) ∧
      (reg = true ↔ ∀ k, UniformSpacing (grids k)) ∧ res.length = m ∧
      ∀ i pt, PointAt obs i pt → ∃ r, res[i]? = some r ∧ P pt r := by
  have hout : pyOut none (List.ofFn obs) = .ok (List.replicate m (zero : Ieee f)) := by
    obtain ⟨n, rfl⟩ : ∃ n, N = n + 1 := ⟨N - 1, by omega⟩
    rw [(C49_out _ (obs 0)).1 (by rw [List.ofFn_succ]; rfl), hobs 0]
  have h2' : ∀ g ∈ List.ofFn grids, 2 ≤ g.length := fun g hg => by
    obtain ⟨k, rfl⟩ := List.mem_ofFn.1 hg
    exact hlen k
  have huni : (∀ g ∈ List.ofFn grids, UniformSpacing g) ↔ ∀ k, UniformSpacing (grids k) :=
    ⟨fun h k => h _ (List.mem_ofFn.2 ⟨k, rfl⟩), fun h g hg => by
      obtain ⟨k, rfl⟩ := List.mem_ofFn.1 hg
      exact h k⟩
  by_cases hr : ∀ k, UniformSpacing (grids k)
  · obtain ⟨res, e1, e2, e3⟩ := batch_complete h1 (hreg hr) obs (List.replicate m (zero : Ieee f))
      (fun k => by rw [hobs k, List.length_replicate]) P hP
    refine ⟨true, res, ?_, by simpa using hr, by rw [e2, List.length_replicate], e3⟩
    rw [C49_regular fma dt hdt method _ _ vals none _ lin false atol hout
      (by rw [List.length_ofFn]; exact h8) h2' (.inr (huni.2 hr))]
    simp only [List.map_ofFn]
    have : (method.runRegular fma (List.ofFn (List.length ∘ grids))
        (List.ofFn ((fun g => g.getD 0 zero) ∘ grids))
        (List.ofFn ((fun g => g.getD 1 zero -. g.getD 0 zero) ∘ grids)) vals lin (List.ofFn obs)
        (List.replicate m (zero : Ieee f))) = (.ok (), res) := e1
    rw [this]; rfl
  · obtain ⟨res, e1, e2, e3⟩ := batch_complete h1 (hrect hr) obs (List.replicate m (zero : Ieee f))
      (fun k => by rw [hobs k, List.length_replicate]) P hP
    refine ⟨false, res, ?_, by simpa using hr, by rw [e2, List.length_replicate], e3⟩
    rw [C49_rectilinear fma dt hdt method _ _ vals none _ lin false atol hout
      (by rw [List.length_ofFn]; exact h8) (by rw [List.length_ofFn]; exact h8) h2'
      (by rw [huni]; simpa using hr)]
    have : (method.runRectilinear fma (List.ofFn grids) vals lin (List.ofFn obs)
        (List.replicate m (zero : Ieee f))) = (.ok (), res) := e1
    rw [this]; rfl

/-- The grid handed to the regular routine is accepted. -/
theorem detected_accepted {κ : ℚ} {n : Nat} (grids : Fin N → List (Ieee f)) (vals : List (Ieee f))
    (hG : (Axes.rectilinear fun k => (grids k).map val).Valid n (vals.map val))
    (h : ∀ k, DetectedAxis κ (grids k) (val ((grids k).getD 1 zero -. (grids k).getD 0 zero))) :
    RegularAccepted n (fun k => (grids k).length)
      (fun k => (grids k).getD 1 zero -. (grids k).getD 0 zero) vals := by
  refine ⟨by have := hG.slice; rw [isSlice_iff] at this ⊢; simpa using this,
    by have := hG.len; simpa [Axes.size] using this,
    fun k => by have := hG.big k; simpa [Axes.size] using this, fun k => ?_⟩
  refine (exactCompare f _ _ (zero_eq (f := f)).1 (h k).finite.2).2 ?_
  rw [(zero_eq (f := f)).2]
  exact (h k).pos

/-- The grid handed to the rectilinear routine is accepted. -/
theorem given_accepted {n : Nat} (h2 : 2 ≤ n) (grids : Fin N → List (Ieee f))
    (vals : List (Ieee f))
    (hG : (Axes.rectilinear fun k => (grids k).map val).Valid n (vals.map val))
    (hfin : ∀ k, ∀ a ∈ grids k, Finite a) : RectilinearAccepted n grids vals := by
  have hlen : ∀ k, n ≤ (grids k).length := fun k => by
    have := hG.big k; simpa [Axes.size] using this
  refine ⟨by have := hG.slice; rw [isSlice_iff] at this ⊢; simpa using this,
    by have := hG.len; simpa [Axes.size] using this, hlen, fun k => ?_⟩
  have h2 := hlen k
  have h01 := hG.increasing k 0 (by have := hG.big k; omega)
  simp only [Axes.node] at h01
  match hgk : grids k with
  | [] => rw [hgk] at h2; simp at h2; omega
  | [_] => rw [hgk] at h2; simp at h2; omega
  | a :: b :: rest =>
    refine ⟨a, b, rest, rfl, ?_⟩
    rw [hgk] at h01
    refine (exactCompare f _ _ (hfin k a (by simp [hgk])) (hfin k b (by simp [hgk]))).2 ?_
    simpa using h01

/-- The regular grid of a detected grid satisfies the exact preconditions. -/
theorem detected_valid {κ : ℚ} {n : Nat} (grids : Fin N → List (Ieee f)) (vals : List (Ieee f))
    (hG : (Axes.rectilinear fun k => (grids k).map val).Valid n (vals.map val))
    (h : ∀ k, DetectedAxis κ (grids k) (val ((grids k).getD 1 zero -. (grids k).getD 0 zero))) :
    (Axes.regular (fun k => (grids k).length) (fun k => val ((grids k).getD 0 zero))
      fun k => val ((grids k).getD 1 zero -. (grids k).getD 0 zero)).Valid n (vals.map val) := by
  refine ⟨hG.slice, by have := hG.len; simpa [Axes.size] using this,
    fun k => by have := hG.big k; simpa [Axes.size] using this, fun k i _ => ?_⟩
  simp only [Axes.node]
  push_cast
  have := (h k).pos
  linarith

end

end Interpn
