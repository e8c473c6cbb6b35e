import Verif.Lemmas.DetectRegular

/-! One axis that passes the regularity check of the Python entry point: the bounds on its spacing,
its nodes and its observations that the accuracy theorems of the regular routines need. -/

set_option autoImplicit false

namespace Interpn
open FloatOps Ieee

section
variable {f : Format}

/-- What is known of a grid that passes the regularity check, with `s` its computed step and `κ` a
bound on the size of its nodes in units of the first spacing. -/
structure DetectedAxis (κ : ℚ) (g : List (Ieee f)) (s : ℚ) : Prop where
  step : s = val (g.getD 1 zero -. g.getD 0 zero)
  finite : Finite (g.getD 0 zero) ∧ Finite (g.getD 1 zero -. g.getD 0 zero)
  pos : 0 < s
  spacing : 98 / 100 * s ≤ (g.map val).getD 1 0 - (g.map val).getD 0 0 ∧
    (g.map val).getD 1 0 - (g.map val).getD 0 0 ≤ 102 / 100 * s
  start : val (g.getD 0 zero) = (g.map val).getD 0 0
  node : ∀ i < g.length, |(g.map val).getD i 0| ≤ 102 / 100 * κ * s
  count : ((g.length - 1 : Nat) : ℚ) ≤ 21 / 10 * κ
  close : ∀ i < g.length, |(val (g.getD 0 zero) + s * (i : ℚ)) - (g.map val).getD i 0| ≤
    42 / 10 * (f.unitRoundoff * κ) * s
  ends : |val (g.getD 0 zero)| ≤ 107 / 100 * κ * s ∧
    |val (g.getD 0 zero) + s * ((g.length - 1 : Nat) : ℚ)| ≤ 107 / 100 * κ * s
  obs : ∀ x, InRange g.length (fun i => (g.map val).getD i 0) x →
    |x| ≤ 107 / 100 * κ * s ∧
    NearRange g.length (fun i => val (g.getD 0 zero) + s * (i : ℚ))
      (42 / 10 * (f.unitRoundoff * κ)) x ∧
    0 ≤ (x - val (g.getD 0 zero)) / s ∧ (x - val (g.getD 0 zero)) / s ≤ 21 / 10 * κ + 1

theorem detectedAxis {κ : ℚ} (hκ : 0 ≤ κ) (huκ : 110 * ((1 + κ) * f.unitRoundoff) ≤ 1)
    (g : List (Ieee f)) (hl : 2 ≤ g.length)
    (hpos : 0 < (g.map val).getD 1 0 - (g.map val).getD 0 0)
    (hg : ∀ a ∈ g, Finite a ∧ |val a| ≤ κ * ((g.map val).getD 1 0 - (g.map val).getD 0 0))
    (hlarge : 5 * (κ * ((g.map val).getD 1 0 - (g.map val).getD 0 0)) + 1 ≤ f.omega)
    (huni : UniformSpacing g) :
    DetectedAxis κ g (val (g.getD 1 zero -. g.getD 0 zero)) := by
  have hu0 := (rounds f).u_nonneg
  set u := f.unitRoundoff with hudef
  have huκ0 : 0 ≤ u * κ := by positivity
  have hu1 : u ≤ 1 / 110 := by linarith
  have huκ1 : u * κ ≤ 1 / 110 := by linarith
  set D := (g.map val).getD 1 0 - (g.map val).getD 0 0 with hD
  have hκD := mul_nonneg hκ hpos.le
  have hg2 : ∀ a ∈ g, Finite a ∧ 2 * |val a| ≤ f.omega := fun a ha =>
    ⟨(hg a ha).1, by have := (hg a ha).2; linarith⟩
  obtain ⟨hsf, hsp⟩ := uniform_spacing (by linarith : f.unitRoundoff ≤ 1 / 2) hg2 hl huni
  have hnode := uniform_node (by linarith : f.unitRoundoff ≤ 1 / 2) hg2 hl huni
  set s := val (g.getD 1 zero -. g.getD 0 zero) with hs
  have h1 := hsp 0 hl
  change |D - s| ≤ 2 * u * |s| at h1
  have hspos : 0 < s := by
    by_contra hneg
    have hneg' : s ≤ 0 := not_lt.1 hneg
    rw [abs_of_nonpos hneg'] at h1
    have h3 := (abs_le.1 h1).2
    have : 2 * u * -s ≤ 1 * -s := by gcongr <;> linarith
    linarith
  rw [abs_of_pos hspos] at h1
  have hDs : 98 / 100 * s ≤ D ∧ D ≤ 102 / 100 * s := by
    have h3 := abs_le.1 h1
    have : 2 * u * s ≤ 2 / 100 * s := by gcongr; linarith
    constructor <;> linarith [h3.1, h3.2]
  have hκs := mul_nonneg hκ hspos.le
  have hsize : ∀ i < g.length, |(g.map val).getD i 0| ≤ 102 / 100 * κ * s := fun i hi => by
    rw [List.getD_eq_getElem _ _ (by simpa using hi), List.getElem_map]
    refine (hg _ (List.getElem_mem hi)).2.trans ?_
    calc κ * D ≤ κ * (102 / 100 * s) := by gcongr; exact hDs.2
      _ = _ := by ring
  have hn : ((g.length - 1 : Nat) : ℚ) ≤ 21 / 10 * κ := by
    have h1 := hnode (g.length - 1) (by omega)
    have h2 := hnode 0 (by omega)
    have h7 := abs_le.1 (hsize (g.length - 1) (by omega))
    have h8 := abs_le.1 (hsize 0 (by omega))
    rw [abs_of_pos hspos] at h1 h2
    simp only [Nat.cast_zero, mul_zero, zero_mul, add_zero] at h2
    have h5 := abs_le.1 h1
    have h6 := abs_le.1 h2
    set n := ((g.length - 1 : Nat) : ℚ)
    have hn0 : 0 ≤ n := Nat.cast_nonneg _
    have h9 : 2 * u * n * s ≤ 2 / 110 * n * s := by gcongr; linarith
    have h10 : n * s ≤ 21 / 10 * κ * s := by linarith [h5.1, h6.2, h7.2, h8.1]
    exact le_of_mul_le_mul_right h10 hspos
  have hclose : ∀ i < g.length, |(val (g.getD 0 zero) + s * (i : ℚ)) - (g.map val).getD i 0| ≤
      42 / 10 * (u * κ) * s := fun i hi => by
    rw [abs_sub_comm]
    refine (hnode i hi).trans ?_
    rw [abs_of_pos hspos]
    have h1 : (i : ℚ) ≤ ((g.length - 1 : Nat) : ℚ) := by
      exact_mod_cast (by omega : i ≤ g.length - 1)
    have h2 := h1.trans hn
    calc 2 * u * i * s ≤ 2 * u * (21 / 10 * κ) * s := by gcongr
      _ = _ := by ring
  have hstart : val (g.getD 0 zero) = (g.map val).getD 0 0 := by
    rw [List.getD_eq_getElem _ _ (by omega : 0 < g.length),
      List.getD_eq_getElem _ _ (by simp; omega), List.getElem_map]
  have hεs : 42 / 10 * (u * κ) * s ≤ 5 / 100 * (κ * s) := by
    have : u * (κ * s) ≤ 1 / 110 * (κ * s) := by gcongr
    linarith
  have hεs1 : 42 / 10 * (u * κ) * s ≤ s := by
    have : (u * κ) * s ≤ 1 / 110 * s := by gcongr
    linarith
  have hεs0 : 0 ≤ 42 / 10 * (u * κ) * s := by positivity
  have hlast := abs_le.1 (hclose (g.length - 1) (by omega))
  have hs0 := abs_le.1 (hsize 0 (by omega))
  have hs1 := abs_le.1 (hsize (g.length - 1) (by omega))
  refine ⟨rfl, ⟨?_, hsf⟩, hspos, hDs, hstart, hsize, hn, hclose, ⟨?_, ?_⟩,
    fun x hx => ⟨?_, ⟨?_, ?_⟩, ?_, ?_⟩⟩
  · rw [List.getD_eq_getElem _ _ (by omega : 0 < g.length)]
    exact (hg _ (List.getElem_mem _)).1
  · rw [hstart, abs_le]
    constructor <;> linarith [hs0.1, hs0.2]
  · rw [abs_le]
    constructor <;> linarith [hs1.1, hs1.2, hlast.1, hlast.2]
  · obtain ⟨h3, h4⟩ := hx
    rw [abs_le]
    constructor <;> linarith [hs0.1, hs1.2]
  · have h3 := hx.1
    simp only [Nat.cast_zero, mul_zero, add_zero, Nat.cast_one, mul_one, hstart] at h3 ⊢
    rw [add_sub_cancel_left]
    linarith
  · have h4 := hx.2
    have e1 : ((g.length - 1 : Nat) : ℚ) = ((g.length - 2 : Nat) : ℚ) + 1 := by
      have : g.length - 1 = g.length - 2 + 1 := by omega
      exact_mod_cast congrArg (fun n : Nat => (n : ℚ)) this
    have e2 : 42 / 10 * (u * κ) * (val (g.getD 0 zero) + s * ((g.length - 1 : Nat) : ℚ) -
        (val (g.getD 0 zero) + s * ((g.length - 2 : Nat) : ℚ))) = 42 / 10 * (u * κ) * s := by
      rw [e1]; ring
    simp only at h4 ⊢
    rw [e2]
    linarith [hlast.1]
  · refine div_nonneg ?_ hspos.le
    have h3 := hx.1
    rw [hstart]; simp only at h3; linarith
  · rw [div_le_iff₀ hspos]
    have h4 := hx.2
    simp only at h4
    have h8 : s * ((g.length - 1 : Nat) : ℚ) ≤ s * (21 / 10 * κ) := by gcongr
    linarith [hlast.1]

namespace DetectedAxis
variable {κ : ℚ} {g : List (Ieee f)} {s : ℚ}

theorem large (h : DetectedAxis κ g s) (hκ : 0 ≤ κ)
    (hlarge : 5 * (κ * ((g.map val).getD 1 0 - (g.map val).getD 0 0)) + 1 ≤ f.omega) :
    4 * (107 / 100 * κ * s) + 1 ≤ f.omega := by
  have b := mul_le_mul_of_nonneg_left h.spacing.1 hκ
  have d := mul_nonneg hκ h.pos.le
  linarith

theorem normal (h : DetectedAxis κ g s)
    (hnormal : 2 * f.underflow ≤ f.unitRoundoff * ((g.map val).getD 1 0 - (g.map val).getD 0 0)) :
    f.underflow ≤ f.unitRoundoff * s := by
  have b := mul_le_mul_of_nonneg_left h.spacing.2 (rounds f).u_nonneg
  have := mul_nonneg (rounds f).u_nonneg h.pos.le
  linarith

end DetectedAxis

end

end Interpn
