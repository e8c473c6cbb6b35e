import Verif.Spec.Rounding
import Verif.Lemmas.Eval
import Mathlib.Tactic.Ring
import Mathlib.Tactic.FieldSimp

/-! Exactly computed cases of the linear blend. -/

set_option autoImplicit false

namespace Interpn
open FloatOps

variable {T K : Type} [FloatOps T] [Field K] {val : T → K} {fin : T → Prop}

/-- Blending equal values. -/
theorem lerp_const (h : ExactIfFloat val fin) (fma : Bool) {t : T} {v : Fin 2 → T} {z : K}
    (ht : fin t) (h0 : fin (v 0) ∧ val (v 0) = z) (h1 : fin (v 1) ∧ val (v 1) = z) :
    fin (lerp fma t v) ∧ val (lerp fma t v) = z := by
  have hd := h.sub (v 1) (v 0) zero h1.1 h0.1 h.zero.1 (by rw [h1.2, h0.2, h.zero.2, sub_self])
  rw [h.zero.2] at hd
  unfold lerp
  cases fma with
  | true =>
    have := h.mulAdd t (v 1 -. v 0) (v 0) (v 0) ht hd.1 h0.1 h0.1 (by rw [hd.2]; ring)
    rw [h0.2] at this
    exact this
  | false =>
    have hm := h.mul t (v 1 -. v 0) zero ht hd.1 h.zero.1 (by rw [hd.2, h.zero.2, mul_zero])
    rw [h.zero.2] at hm
    have := h.add (v 0) (t *. (v 1 -. v 0)) (v 0) h0.1 hm.1 h0.1 (by rw [hm.2, add_zero])
    rw [h0.2] at this
    exact this

/-- Weight 0, if the difference of the values is finite. -/
theorem lerp_zero (h : ExactIfFloat val fin) (fma : Bool) {t : T} {v : Fin 2 → T}
    (ht : fin t ∧ val t = 0) (h0 : fin (v 0)) (hd : fin (v 1 -. v 0)) :
    fin (lerp fma t v) ∧ val (lerp fma t v) = val (v 0) := by
  unfold lerp
  cases fma with
  | true => exact h.mulAdd t (v 1 -. v 0) (v 0) (v 0) ht.1 hd h0 h0 (by rw [ht.2]; ring)
  | false =>
    have hm := h.mul t (v 1 -. v 0) zero ht.1 hd h.zero.1 (by rw [ht.2, h.zero.2, zero_mul])
    rw [h.zero.2] at hm
    exact h.add (v 0) (t *. (v 1 -. v 0)) (v 0) h0 hm.1 h0 (by rw [hm.2, add_zero])

/-- Weight 1, if the difference of the values is a float. -/
theorem lerp_one (h : ExactIfFloat val fin) (fma : Bool) {t d : T} {v : Fin 2 → T}
    (ht : fin t ∧ val t = 1) (h0 : fin (v 0)) (h1 : fin (v 1)) (hd : fin d)
    (hdv : val (v 1) - val (v 0) = val d) :
    fin (lerp fma t v) ∧ val (lerp fma t v) = val (v 1) := by
  have hs := h.sub (v 1) (v 0) d h1 h0 hd hdv
  unfold lerp
  cases fma with
  | true =>
    exact h.mulAdd t (v 1 -. v 0) (v 0) (v 1) ht.1 hs.1 h0 h1
      (by rw [ht.2, hs.2, ← hdv]; ring)
  | false =>
    have hm := h.mul t (v 1 -. v 0) d ht.1 hs.1 hd (by rw [ht.2, hs.2, one_mul])
    exact h.add (v 0) (t *. (v 1 -. v 0)) (v 1) h0 hm.1 h1 (by rw [hm.2, ← hdv]; ring)

/-- The weight of a node of its own cell. -/
theorem weight_exact (h : ExactIfFloat val fin) {a b : T} (ha : fin a)
    (hd : fin (b -. a) ∧ val (b -. a) ≠ 0) :
    (fin ((a -. a) /. (b -. a)) ∧ val ((a -. a) /. (b -. a)) = 0) ∧
    (fin ((b -. a) /. (b -. a)) ∧ val ((b -. a) /. (b -. a)) = 1) := by
  have hz := h.sub a a zero ha ha h.zero.1 (by rw [h.zero.2, sub_self])
  rw [h.zero.2] at hz
  have h1 := h.div (a -. a) (b -. a) zero hz.1 hd.1 h.zero.1 hd.2 (by rw [hz.2, h.zero.2, zero_div])
  have h2 := h.div (b -. a) (b -. a) one hd.1 hd.1 h.one.1 hd.2 (by rw [h.one.2, div_self hd.2])
  rw [h.zero.2] at h1
  rw [h.one.2] at h2
  exact ⟨h1, h2⟩

end Interpn
