import Verif.Lemmas.DropAxis
import Verif.Lemmas.IeeeNeg
import Verif.Lemmas.IeeeSign
import Verif.Lemmas.IeeeConst
import Verif.Lemmas.RoundingCubic

/-! The conditions of `Lemmas/DropAxis` for IEEE 754 arithmetic. -/

set_option autoImplicit false

namespace Interpn
open FloatOps
namespace Ieee

variable {f : Format}

theorem sameValue_finite {u c : Ieee f} (hc : Finite c) :
    SameValue u c ↔ Finite u ∧ val u = val c := by
  obtain ⟨s, q, hr, hs, rfl⟩ := hc.cases
  cases u
  · exact ⟨fun h => ⟨trivial, h.symm⟩, fun h => h.2.symm⟩
  · exact ⟨False.elim, fun h => h.1.elim⟩
  · exact ⟨False.elim, fun h => h.1.elim⟩

/-- If `b` is finite, `a` is the same number. -/
def SameIfFinite (a b : Ieee f) : Prop := Finite b → SameValue a b

theorem dataRel_sameIfFinite : DataRel (T := Ieee f) SameIfFinite := by
  have hs := dataRel_sameValue (f := f)
  have ha := (special f).nonfinite_absorbing
  have key : ∀ {P Q : Prop}, (¬ P → ¬ Q) → Q → P := fun h q => by
    by_contra hp; exact h hp q
  constructor
  · intro a a' b b' h1 h2 h
    exact hs.add (h1 (key (fun h => ha.add _ _ (.inl h)) h)) (h2 (key (fun h => ha.add _ _ (.inr h)) h))
  · intro a a' b b' h1 h2 h
    exact hs.sub (h1 (key (fun h => ha.sub _ _ (.inl h)) h)) (h2 (key (fun h => ha.sub _ _ (.inr h)) h))
  · intro a a' h1 h
    exact hs.neg (h1 (key (ha.neg _) h))
  · intro a a' c h1 h
    exact hs.mulL c (h1 (key (fun h => ha.mul _ _ (.inr h)) h))
  · intro a a' c h1 h
    exact hs.mulR c (h1 (key (fun h => ha.mul _ _ (.inl h)) h))
  · intro a a' c h1 h
    exact hs.div c (h1 (key (ha.div _ _) h))
  · intro a a' b b' c h1 h2 h
    exact hs.fmaL c (h1 (key (fun h => ha.mulAdd _ _ _ (.inr (.inl h))) h))
      (h2 (key (fun h => ha.mulAdd _ _ _ (.inr (.inr h))) h))
  · intro a a' b b' c h1 h2 h
    exact hs.fmaR c (h1 (key (fun h => ha.mulAdd _ _ _ (.inl h)) h))
      (h2 (key (fun h => ha.mulAdd _ _ _ (.inr (.inr h))) h))

theorem two_exact : Finite ((one : Ieee f) +. one) ∧ val ((one : Ieee f) +. one) ≠ 0 := by
  obtain ⟨a, ha, hv⟩ := two_float (f := f)
  have h := exactIfFloat f
  have := h.add one one a h.one.1 h.one.1 ha (by rw [h.one.2, hv]; norm_num)
  exact ⟨this.1, by rw [this.2, hv]; norm_num⟩

/-- A quotient of a positive number and a sum of which it is a part. -/
theorem part_finite {a b : Ieee f} (ha : Finite a) (hb : Finite b) (ha0 : 0 < val a)
    (hb0 : 0 < val b) : Finite (a /. (a +. b)) := by
  obtain ⟨s, e⟩ := add_fin ha hb
  have h0 := (exactIfFloat f).zero
  have h1 := (exactIfFloat f).one
  rcases rnd_cases (f := f) s (val a + val b) with ⟨h, hv⟩ | ⟨h, -⟩
  · rw [← e] at h hv
    have hge : val a ≤ val (a +. b) := by
      rw [hv]
      have := f.roundQ_mono (show val a ≤ val a + val b by linarith)
      rwa [f.roundQ_repr ha.repr] at this
    have hpos : 0 < val (a +. b) := ha0.trans_le hge
    refine ((staysBetween f).div a (a +. b) zero one ha h h0.1 h1.1 hpos.ne' ?_ ?_).1
    · rw [h0.2]; positivity
    · rw [h1.2]; exact (div_le_one hpos).2 hge
  · rw [e, h]
    obtain ⟨s, q, hr, hs, rfl⟩ := ha.cases
    trivial

theorem usableRatio {r : Ieee f} (h : Finite r) (h0 : 0 < val r) : UsableRatio val Finite r := by
  have h1 := (exactIfFloat f).one
  have hp : 0 < val (one : Ieee f) := by rw [h1.2]; exact one_pos
  exact ⟨h, h0.ne', part_finite h h1.1 h0 hp, part_finite h1.1 h hp h0⟩

end Ieee
end Interpn
