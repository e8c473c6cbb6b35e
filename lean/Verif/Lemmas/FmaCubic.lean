import Verif.Lemmas.ValueScale
import Verif.Lemmas.DyadicCubic

/-! `2 d - k` is rounded once, with or without a fused multiply-add. Used for C133. -/

set_option autoImplicit false

namespace Interpn
open FloatOps Ieee
variable {f : Format}

/-- The second computation gives what the first one gives, if that is finite. -/
def SameIfFinite (a b : Ieee f) : Prop := Ieee.Finite a → b = a

namespace SameIfFinite
variable {a a' b b' c c' : Ieee f}

theorem rfl' : SameIfFinite a a := fun _ => rfl

theorem add_finite_left (h : Ieee.Finite (a +. b)) : Ieee.Finite a := by
  by_contra hn
  exact add_not_finite hn h

theorem add_finite_right (h : Ieee.Finite (a +. b)) : Ieee.Finite b := by
  cases a with
  | fin => cases b with
    | fin => trivial
    | inf => exact h.elim
    | nan => exact h.elim
  | inf t => exact absurd h (add_not_finite (x := inf t) id)
  | nan => exact h.elim

theorem mul_finite (h : Ieee.Finite (a *. b)) : Ieee.Finite a ∧ Ieee.Finite b := by
  cases a with
  | fin s q h1 h2 =>
    cases b with
    | fin => exact ⟨trivial, trivial⟩
    | inf t =>
      change Ieee.Finite (if q = 0 then nan else inf (xor s t)) at h
      split at h <;> exact h.elim
    | nan => exact h.elim
  | inf t =>
    cases b with
    | fin s q h1 h2 =>
      change Ieee.Finite (if q = 0 then nan else inf (xor t s)) at h
      split at h <;> exact h.elim
    | inf u => exact h.elim
    | nan => exact h.elim
  | nan => exact h.elim

theorem mulAdd_finite (h : Ieee.Finite (FloatOps.mulAdd a b c)) :
    Ieee.Finite a ∧ Ieee.Finite b ∧ Ieee.Finite c := by
  by_cases hab : Ieee.Finite a ∧ Ieee.Finite b
  · refine ⟨hab.1, hab.2, ?_⟩
    obtain ⟨s, q, h1, h2, rfl⟩ := hab.1.cases
    obtain ⟨t, r, h3, h4, rfl⟩ := hab.2.cases
    cases c with
    | fin => trivial
    | inf => exact h.elim
    | nan => exact h.elim
  · have e : FloatOps.mulAdd a b c = a *. b +. c := mulAdd_not_fin c hab
    rw [e] at h
    exact absurd (mul_finite (add_finite_left h)) hab

theorem neg_finite (h : Ieee.Finite (-. a)) : Ieee.Finite a := by
  cases a with
  | fin => trivial
  | inf => exact h.elim
  | nan => exact h.elim

theorem neg (h : SameIfFinite a a') : SameIfFinite (-. a) (-. a') := fun hf => by
  rw [h (neg_finite hf)]

theorem add (ha : SameIfFinite a a') (hb : SameIfFinite b b') :
    SameIfFinite (a +. b) (a' +. b') := fun hf => by
  rw [ha (add_finite_left hf), hb (add_finite_right hf)]

theorem sub (ha : SameIfFinite a a') (hb : SameIfFinite b b') :
    SameIfFinite (a -. b) (a' -. b') := ha.add hb.neg

theorem mul (ha : SameIfFinite a a') (hb : SameIfFinite b b') :
    SameIfFinite (a *. b) (a' *. b') := fun hf => by
  rw [ha (mul_finite hf).1, hb (mul_finite hf).2]

theorem mulAdd (ha : SameIfFinite a a') (hb : SameIfFinite b b') (hc : SameIfFinite c c') :
    SameIfFinite (FloatOps.mulAdd a b c) (FloatOps.mulAdd a' b' c') := fun hf => by
  obtain ⟨h1, h2, h3⟩ := mulAdd_finite hf
  rw [ha h1, hb h2, hc h3]

theorem div (ha : SameIfFinite a a') : SameIfFinite (a /. b) (a' /. b) := fun hf => by
  have : Ieee.Finite a := by
    cases a with
    | fin => trivial
    | inf => cases b <;> exact hf.elim
    | nan => exact hf.elim
  rw [ha this]

end SameIfFinite

/-- Doubling is exact, so `2 d - k` is rounded once either way. -/
theorem double_sub_fused {d k : Ieee f} (h : Ieee.Finite (((one : Ieee f) +. one) *. d -. k)) :
    FloatOps.mulAdd ((one : Ieee f) +. one) d (-. k) = ((one : Ieee f) +. one) *. d -. k := by
  have hp := SameIfFinite.add_finite_left h
  have hk := SameIfFinite.neg_finite (SameIfFinite.add_finite_right h)
  obtain ⟨ht, hd⟩ := SameIfFinite.mul_finite hp
  have h2 := (two_eq (f := f)).2
  obtain ⟨u, w, h1, h1', e⟩ := ht.cases
  rw [e] at h hp h2 ⊢
  change w = 2 at h2
  subst h2
  have hu : u = false := by rw [h1' (by norm_num)]; exact decide_eq_false (by norm_num)
  subst hu
  obtain ⟨s, q, h3, h3', rfl⟩ := hd.cases
  obtain ⟨t, r, h4, h4', rfl⟩ := hk.cases
  have hr : f.roundQ (2 * q) = 2 * q := by
    have := Format.roundQ_scale 1 (Format.Representable.multiple h3)
    rwa [f.roundQ_repr h3, pow_one] at this
  change rnd f (xor false s && !t) (2 * q + -r) =
    Ieee.add (rnd f (xor false s) (2 * q)) (fin (!t) (-r) _ _)
  change Ieee.Finite (rnd f (xor false s) (2 * q)) at hp
  unfold rnd at hp
  split at hp
  · next ho =>
    have : ∀ h5 h6, rnd f (xor false s) (2 * q) = fin s (2 * q) h5 h6 := by
      intro h5 h6
      unfold rnd
      rw [dif_pos ho]
      congr 1
      by_cases hq : q = 0
      · simp [hq]
      · rw [if_neg (by simpa using hq), h3' hq]
        rw [decide_eq_decide]
        constructor <;> intro <;> linarith
    rw [this (by rw [← hr]; exact f.roundQ_isRepr ho) (by
      intro h0
      rw [h3' (by simpa using h0), decide_eq_decide]
      constructor <;> intro <;> linarith)]
    simp only [Bool.false_xor]
    rfl
  · exact hp.elim

namespace SameIfFinite
variable {a a' b b' c c' y0 y0' dy dy' k0 k0' k1 k1' t : Ieee f}

theorem hermite (fma : Bool) (hy : SameIfFinite y0 y0') (hd : SameIfFinite dy dy')
    (h0 : SameIfFinite k0 k0') (h1 : SameIfFinite k1 k1') :
    SameIfFinite (hermite fma t y0 dy k0 k1) (Interpn.hermite fma t y0' dy' k0' k1') := by
  have ha := h0.sub hd
  have hb := h1.neg.add hd
  have hc1 := hd.add ha
  have hc2 := hb.sub (ha.add ha)
  have hc3 := ha.sub hb
  have ht : SameIfFinite t t := rfl'
  unfold Interpn.hermite
  cases fma
  · exact hy.add (ht.mul (hc1.add (ht.mul (hc2.add (ht.mul hc3)))))
  · exact ((hc3.mulAdd ht hc2).mulAdd ht hc1).mulAdd ht hy

theorem linExtrap (fma : Bool) (hy : SameIfFinite y0 y0') (h1 : SameIfFinite k1 k1') :
    SameIfFinite (Interpn.linExtrap fma y0 k1 t) (Interpn.linExtrap fma y0' k1' t) := by
  unfold Interpn.linExtrap
  cases fma
  · exact hy.add (h1.mul rfl')
  · exact h1.mulAdd rfl' hy

/-- The unfused slope, if finite, is also the fused one. -/
theorem naturalK1 (fma : Bool) (hd : SameIfFinite dy dy') (h0 : SameIfFinite k0 k0') :
    SameIfFinite (Interpn.naturalK1 false ((one : Ieee f) +. one) dy k0)
      (Interpn.naturalK1 fma ((one : Ieee f) +. one) dy' k0') := by
  have h : SameIfFinite (((one : Ieee f) +. one) *. dy -. k0)
      (((one : Ieee f) +. one) *. dy' -. k0') := (mul rfl' hd).sub h0
  unfold Interpn.naturalK1
  cases fma
  · exact h
  · intro hf
    have e := h hf
    simp only [Bool.false_eq_true, if_false, if_true] at hf ⊢
    rw [← e] at hf
    rw [double_sub_fused hf, e]

theorem naturalK1_same (fma : Bool) (hd : SameIfFinite dy dy') (h0 : SameIfFinite k0 k0') :
    SameIfFinite (Interpn.naturalK1 fma ((one : Ieee f) +. one) dy k0)
      (Interpn.naturalK1 fma ((one : Ieee f) +. one) dy' k0') := by
  unfold Interpn.naturalK1
  cases fma
  · exact (mul rfl' hd).sub h0
  · exact mulAdd rfl' hd h0.neg

theorem cubicInnerRegular (fma fl : Bool) {v v' : Fin 4 → Ieee f} (h : ∀ p, SameIfFinite (v p) (v' p))
    (t : Ieee f) (sat : Saturation) (lin : Bool) :
    SameIfFinite (Interpn.cubicInnerRegular fma false v t sat lin)
      (Interpn.cubicInnerRegular fma fl v' t sat lin) := by
  unfold Interpn.cubicInnerRegular
  cases sat
  · exact hermite fma (h 1) ((h 2).sub (h 1)) ((h 2).sub (h 0)).div ((h 3).sub (h 1)).div
  · have hd := (h 0).sub (h 1)
    have h0 := ((h 2).sub (h 0)).neg.div (b := (one : Ieee f) +. one)
    exact hermite fma (h 1) hd h0 (naturalK1_same fma hd h0)
  · have hd := (h 0).sub (h 1)
    have h0 := ((h 2).sub (h 0)).neg.div (b := (one : Ieee f) +. one)
    cases lin
    · exact hermite fma (h 1) hd h0 (naturalK1 fl hd h0)
    · exact linExtrap fma (h 0) (naturalK1 fl hd h0)
  · have hd := (h 3).sub (h 2)
    have h0 := ((h 3).sub (h 1)).div (b := (one : Ieee f) +. one)
    exact hermite fma (h 2) hd h0 (naturalK1_same fma hd h0)
  · have hd := (h 3).sub (h 2)
    have h0 := ((h 3).sub (h 1)).div (b := (one : Ieee f) +. one)
    cases lin
    · exact hermite fma (h 2) hd h0 (naturalK1_same fma hd h0)
    · exact linExtrap fma (h 3) (naturalK1_same fma hd h0)

theorem centeredDiff (fma : Bool) {h01 h12 : Ieee f} (ha : SameIfFinite a a')
    (hb : SameIfFinite b b') (hc : SameIfFinite c c') :
    SameIfFinite (Interpn.centeredDiff fma a b c h01 h12)
      (Interpn.centeredDiff fma a' b' c' h01 h12) := by
  unfold Interpn.centeredDiff
  cases fma
  · exact (mul rfl' (hc.sub hb).div).add (mul rfl' (hb.sub ha).div)
  · exact mulAdd rfl' (hc.sub hb).div (mul rfl' (hb.sub ha).div)

theorem cubicInnerRectilinear (fma fk fl fl' : Bool) {v v' : Fin 4 → Ieee f}
    (h : ∀ p, SameIfFinite (v p) (v' p)) (g : Fin 4 → Ieee f) (x : Ieee f) (sat : Saturation) :
    SameIfFinite (Interpn.cubicInnerRectilinear fma false fl v g x sat false)
      (Interpn.cubicInnerRectilinear fma fk fl' v' g x sat false) := by
  unfold Interpn.cubicInnerRectilinear
  cases sat
  · exact hermite fma (h 1) ((h 2).sub (h 1)) (centeredDiff fma (h 0) (h 1) (h 2))
      (centeredDiff fma (h 1) (h 2) (h 3))
  · have hd := (h 0).sub (h 1)
    have h0 := (centeredDiff fma (h01 := one) (h12 := (g 2 -. g 1) /. (g 1 -. g 0))
      (h 0) (h 1) (h 2)).neg
    exact hermite fma (h 1) hd h0 (naturalK1 fk hd h0)
  · have hd := (h 0).sub (h 1)
    have h0 := (centeredDiff fma (h01 := one) (h12 := (g 2 -. g 1) /. (g 1 -. g 0))
      (h 0) (h 1) (h 2)).neg
    exact hermite fma (h 1) hd h0 (naturalK1 false hd h0)
  · have hd := (h 3).sub (h 2)
    have h0 := centeredDiff fma (h01 := (g 2 -. g 1) /. (g 3 -. g 2)) (h12 := one)
      (h 1) (h 2) (h 3)
    exact hermite fma (h 2) hd h0 (naturalK1 fk hd h0)
  · have hd := (h 3).sub (h 2)
    have h0 := centeredDiff fma (h01 := (g 2 -. g 1) /. (g 3 -. g 2)) (h12 := one)
      (h 1) (h 2) (h 3)
    exact hermite fma (h 2) hd h0 (naturalK1 false hd h0)

end SameIfFinite

theorem ieee_add_comm (a b : Ieee f) : a +. b = b +. a := by
  cases a <;> cases b <;> try rfl
  · next s a _ _ t b _ _ =>
    change rnd f (s && t) (a + b) = rnd f (t && s) (b + a)
    rw [Bool.and_comm, add_comm]
  · next s t =>
    change (if s = t then inf s else nan) = (if t = s then inf t else nan)
    by_cases h : s = t
    · rw [h]
    · rw [if_neg h, if_neg fun h' => h h'.symm]

/-- A product that is a float need not be rounded, so fusing it with an addition changes nothing. -/
theorem exact_product_fused {step start : Ieee f} {i : Nat} (hi : f.Representable i)
    (hp : f.Representable (val step * i)) :
    FloatOps.mulAdd step (rnd f false i) start = start +. step *. rnd f false i := by
  obtain ⟨h1, h2⟩ := rnd_of_repr (f := f) false hi
  obtain ⟨t, q, h3, h3', e⟩ := h1.cases
  have hq : q = i := by rw [e] at h2; exact h2
  have ht : t = false := by
    have h5 : |f.roundQ (i : ℚ)| ≤ f.omega := by rw [f.roundQ_repr hi]; exact hi.le_omega
    unfold rnd at e
    rw [dif_pos h5] at e
    have h6 := (Ieee.fin.inj e).1
    rw [← h6]
    split
    · rfl
    · exact decide_eq_false (not_lt.2 (by positivity))
  subst ht
  rw [e]
  cases step with
  | fin s a ha ha' =>
    change f.Representable (a * i) at hp
    subst hq
    have e2 : ∀ h5 h6, rnd f (xor s false) (a * (i : ℚ)) = fin s (a * i) h5 h6 := by
      intro h5 h6
      have h7 : |f.roundQ (a * i)| ≤ f.omega := by rw [f.roundQ_repr hp]; exact hp.le_omega
      unfold rnd
      rw [dif_pos h7]
      congr 1
      · split
        · simp
        · next h0 =>
          exact (h6 h0).symm
      · exact f.roundQ_repr hp
    have hsign : a * (i : ℚ) ≠ 0 → s = decide (a * (i : ℚ) < 0) := by
      intro h0
      have hi0 : (0 : ℚ) < i := lt_of_le_of_ne (by positivity) fun h => h0 (by rw [← h, mul_zero])
      rw [ha' fun h => h0 (by rw [h, zero_mul]), decide_eq_decide]
      constructor
      · intro h; exact mul_neg_of_neg_of_pos h hi0
      · intro h; by_contra hc; exact absurd h (not_lt.2 (mul_nonneg (not_lt.1 hc) hi0.le))
    cases start with
    | fin r c hc hc' =>
      change rnd f (xor s false && r) (a * i + c) =
        Ieee.add (fin r c hc hc') (rnd f (xor s false) (a * (i : ℚ)))
      rw [e2 hp hsign]
      change rnd f (xor s false && r) (a * i + c) = rnd f (r && s) (c + a * i)
      rw [add_comm, Bool.xor_false, Bool.and_comm]
    | inf r =>
      change inf r = Ieee.add (inf r) (rnd f (xor s false) (a * (i : ℚ)))
      rw [e2 hp hsign]; rfl
    | nan =>
      change nan = Ieee.add nan (rnd f (xor s false) (a * (i : ℚ)))
      rw [e2 hp hsign]; rfl
  | inf s =>
    rw [show FloatOps.mulAdd (inf s) (fin false q h3 h3') start =
      (inf s : Ieee f) *. fin false q h3 h3' +. start from rfl]
    exact ieee_add_comm _ _
  | nan =>
    exact ieee_add_comm (nan : Ieee f) start

end Interpn
