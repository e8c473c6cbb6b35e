import Verif.Spec.Batch
import Mathlib.Data.List.Forall2
import Mathlib.Tactic.Choose

/-! Two batches of corresponding points, evaluated by two routines that agree on corresponding
points, end in the same way. -/

set_option autoImplicit false

namespace Interpn

variable {T : Type} {N : Nat} {R : Fin N → T → T → Prop} {x x' : Fin N → List T}

theorem PointAt.transfer (hx : ∀ k, List.Forall₂ (R k) (x k) (x' k)) {i : Nat} {pt : Fin N → T}
    (h : PointAt x i pt) : ∃ pt', PointAt x' i pt' ∧ ∀ k, R k (pt k) (pt' k) := by
  have h1 : ∀ k, ∃ b, (x' k)[i]? = some b ∧ R k (pt k) b := fun k => by
    obtain ⟨hi, e⟩ := List.getElem?_eq_some_iff.1 (h k)
    have hi' : i < (x' k).length := (hx k).length_eq ▸ hi
    refine ⟨(x' k)[i], List.getElem?_eq_getElem hi', ?_⟩
    have := (List.forall₂_iff_get.1 (hx k)).2 i hi hi'
    simp only [List.get_eq_getElem] at this
    rw [← e]
    exact this
  choose pt' h2 h3 using h1
  exact ⟨pt', h2, h3⟩

theorem BatchSpec.transfer {one one' : (Fin N → T) → Res T}
    {interp interp' : (Fin N → List T) → List T → Res Unit × List T}
    (h : BatchSpec one interp) (h' : BatchSpec one' interp')
    (hx : ∀ k, List.Forall₂ (R k) (x k) (x' k))
    (hone : ∀ pt pt', (∀ k, R k (pt k) (pt' k)) → (∀ k, pt' k ∈ x' k) → one' pt' = one pt)
    (out : List T) : interp' x' out = interp x out := by
  have hpt : ∀ i pt, PointAt x i pt → ∃ pt', PointAt x' i pt' ∧ one' pt' = one pt := by
    intro i pt hp
    obtain ⟨pt', h1, h2⟩ := hp.transfer hx
    exact ⟨pt', h1, hone pt pt' h2 fun k => List.mem_of_getElem? (h1 k)⟩
  have hres : ∀ vs, ResultsOf one x vs → ResultsOf one' x' vs := by
    intro vs hv i v hi
    obtain ⟨pt, h1, h2⟩ := hv i v hi
    obtain ⟨pt', h3, h4⟩ := hpt i pt h1
    exact ⟨pt', h3, h4.trans h2⟩
  by_cases hlen : ∀ k, (x k).length = out.length
  · have hlen' : ∀ k, (x' k).length = out.length := fun k => (hx k).length_eq ▸ hlen k
    rcases h.total x out hlen with ⟨res, hl, hr⟩ | ⟨vs, pt, hl, hr, hp, hbad⟩
    · rw [(h.ok_iff x out res).2 ⟨hlen, hl, hr⟩, (h'.ok_iff x' out res).2 ⟨hlen', hl, hres _ hr⟩]
    · obtain ⟨pt', h3, h4⟩ := hpt _ pt hp
      rcases hbad with ⟨e, he⟩ | he
      · rw [h.first_err x out vs pt e hlen hl hr hp he,
          h'.first_err x' out vs pt' e hlen' hl (hres _ hr) h3 (h4.trans he)]
      · rw [h.first_panic x out vs pt hlen hl hr hp he,
          h'.first_panic x' out vs pt' hlen' hl (hres _ hr) h3 (h4.trans he)]
  · obtain ⟨k, hk⟩ := not_forall.1 hlen
    rw [h.mismatch x out ⟨k, hk⟩, h'.mismatch x' out ⟨k, fun e => hk ((hx k).length_eq ▸ e)⟩]

end Interpn
