import Verif.Lemmas.Accept
import Verif.Lemmas.Batch
import Verif.Props.Batch
import Verif.Props.Dispatch

/-! Batch specifications for run-time dimensions turned into ones for fixed dimensions. -/

set_option autoImplicit false

namespace Interpn
open FloatOps

variable {T : Type} {N : Nat}

theorem pointAtL_ofFn {x : Fin N → List T} {i : Nat} {pt : Fin N → T} :
    PointAtL (List.ofFn x) i (List.ofFn pt) ↔ PointAt x i pt := by
  unfold PointAtL PointAt
  rw [List.map_ofFn, List.map_ofFn, List.ofFn_inj]
  exact funext_iff

theorem pointAtL_length {x : List (List T)} {i : Nat} {pt : List T} (h : PointAtL x i pt) :
    pt.length = x.length := by
  have := congrArg List.length h
  simpa using this.symm

theorem resultsOfL_ofFn {one : List T → Res T} {x : Fin N → List T} {vs : List T} :
    ResultsOfL one (List.ofFn x) vs ↔ ResultsOf (fun p => one (List.ofFn p)) x vs := by
  unfold ResultsOfL ResultsOf
  refine forall_congr' fun i => forall_congr' fun v => imp_congr_right fun _ => ?_
  constructor
  · rintro ⟨pt, hpt, ho⟩
    obtain ⟨p, rfl⟩ := exists_ofFn (n := N) pt ((pointAtL_length hpt).trans List.length_ofFn)
    exact ⟨p, pointAtL_ofFn.1 hpt, ho⟩
  · rintro ⟨p, hp, ho⟩
    exact ⟨_, pointAtL_ofFn.2 hp, ho⟩

theorem BatchSpecL.toBatchSpec {one : List T → Res T}
    {interp : List (List T) → List T → Res Unit × List T} (h : BatchSpecL N one interp) :
    BatchSpec (N := N) (fun p => one (List.ofFn p)) (fun x out => interp (List.ofFn x) out) where
  mismatch x out hx := h.mismatch _ _ (.inr (by
    obtain ⟨k, hk⟩ := hx
    exact ⟨x k, by simp, hk⟩))
  ok_iff x out out' := by
    rw [h.ok_iff]
    simp only [List.length_ofFn, true_and, List.forall_mem_ofFn_iff, resultsOfL_ofFn]
  first_err x out vs pt e h1 h2 h3 h4 h5 :=
    h.first_err _ _ _ _ _ (by simp) (by simpa [List.forall_mem_ofFn_iff] using h1) h2
      (resultsOfL_ofFn.2 h3) (pointAtL_ofFn.2 h4) h5
  first_panic x out vs pt h1 h2 h3 h4 h5 :=
    h.first_panic _ _ _ _ (by simp) (by simpa [List.forall_mem_ofFn_iff] using h1) h2
      (resultsOfL_ofFn.2 h3) (pointAtL_ofFn.2 h4) h5
  total x out h1 := by
    rcases h.total (List.ofFn x) out (by simp) (by simpa [List.forall_mem_ofFn_iff] using h1) with
      ⟨o, h2, h3⟩ | ⟨vs, pt, h2, h3, h4, h5⟩
    · exact .inl ⟨o, h2, resultsOfL_ofFn.1 h3⟩
    · obtain ⟨p, rfl⟩ := exists_ofFn (n := N) pt ((pointAtL_length h4).trans List.length_ofFn)
      exact .inr ⟨vs, p, h2, resultsOfL_ofFn.1 h3, pointAtL_ofFn.1 h4, h5⟩

end Interpn
