import Verif.Lemmas.RoundingOneDim
import Verif.Lemmas.SimpleBounds

/-! Rounding error of a sample of a regular 1-D grid. -/

set_option autoImplicit false
set_option linter.unusedSectionVars false

namespace Interpn
open FloatOps

section
variable {T K : Type} [FloatOps T] [Field K] [LinearOrder K] [IsStrictOrderedRing K] [FloorRing K]
  {val : T → K} {fin : T → Prop} {u η Ω : K}

/-- A computed node, in units of the step. -/
theorem nodeError_units {κ s : K} (hu : 0 ≤ u) (hη : 0 ≤ η) (hκ : 0 ≤ κ) (hs : 0 < s)
    (hu1 : u ≤ 1 / 1000) (hηs : η ≤ u * s) : nodeError u η (κ * s) ≤ (301 / 100 * (u * κ) + 101 / 100 * u) * s := by
  unfold nodeError
  have e1 : 3 * u + 2 * u ^ 2 ≤ 301 / 100 * u := by nlinarith
  have e2 : (3 * u + 2 * u ^ 2) * (κ * s) ≤ 301 / 100 * u * (κ * s) := by gcongr
  have e3 : (1 + u) * η ≤ (1 + 1 / 1000) * (u * s) := by gcongr
  have e4 : 0 ≤ u * s := by positivity
  linarith

/-- What `RegularGrid1D::at` returns at an observation in range. -/
theorem regular_sample_close (h : Rounds val fin u η Ω) (hcmp : ExactCompare val fin) {n : Nat}
    (hwh : ExactWhole val fin n) {vals : List T} (hdn : vals.length ≤ n) (h2 : 2 ≤ vals.length)
    (hsl : IsSlice vals) {s st x : T} (hs : fin s) (hst : fin st) (hx : fin x) (hpos : 0 < val st)
    {κ : K} (hκ : 0 ≤ κ) (hu1 : u ≤ 1 / 1000) (huκ : u * κ ≤ 1 / 100) (hηu : η ≤ u / 100)
    (hηs : η ≤ u * val st)
    (hnodes : |val s| ≤ κ * val st ∧ |val s + val st * ((vals.length - 1 : Nat) : K)| ≤ κ * val st)
    (hlarge : 4 * (κ * val st) + 1 ≤ Ω) (hκ2 : κ ≤ 2 ^ 53) (hΩ : 2 ^ 70 ≤ Ω)
    (hin : InRange vals.length (fun i : Nat => val s + val st * (i : K)) (val x)) :
    ∃ (c : Nat) (x0 x1 : T) (ex : Extrap) (q' : K),
      (RegularGrid1D.new s st vals >>= fun g => g.at x) =
        .ok ⟨x0, vals.getD c zero, x1, vals.getD (c + 1) zero, ex⟩ ∧
      InCell vals.length (fun i : Nat => val s + val st * (i : K)) (val s + val st * q') c ∧
      |q' - (val x - val s) / val st| ≤ 402 / 100 * (u * κ) + u / 100 ∧
      -(402 / 100 * (u * κ) + u / 100) ≤ (val x - val s) / val st - c ∧
      (val x - val s) / val st - c ≤ 1 + (402 / 100 * (u * κ) + u / 100) ∧
      fin x0 ∧ fin x1 ∧
      |val x0 - (val s + val st * (c : K))| ≤ (301 / 100 * (u * κ) + 101 / 100 * u) * val st ∧
      |val x1 - val x0 - val st| ≤ (u * κ + 105 / 100 * u) * val st ∧
      ex ≠ .outsideLow ∧
      (ex = .outsideHigh → c + 2 = vals.length ∧
        ((vals.length - 1 : Nat) : K) - (301 / 100 * (u * κ) + 101 / 100 * u) ≤
          (val x - val s) / val st) := by
  have hu := h.u_nonneg
  have hη := h.η_nonneg
  have huκ0 : 0 ≤ u * κ := by positivity
  have hunits := regular_units hpos hnodes hin
  have hb := axisInBounds_simple (lam := 0) hu hη hηu hκ hpos (by linarith) huκ hηs le_rfl
    zero_le_two hunits.1 hunits.2 hlarge hκ2 hΩ
  have hnear : NearRange vals.length (fun i : Nat => val s + val st * (i : K)) 0 (val x) :=
    ⟨by have := hin.1; linarith, by have := hin.2; linarith⟩
  obtain ⟨c, w, q', hrun, hcell, hq', ht1, ht2, -, -⟩ := rounds_regular_axis h hwh false hdn h2 hs hst
    hx hpos le_rfl hnodes.1 hnodes.2 hnear rfl rfl rfl hb.node hb.obs hb.position hb.weight hb.index
  have hδ : positionError u η (((vals.length - 1 : Nat) : K) + 0) ≤
      402 / 100 * (u * κ) + u / 100 := by
    unfold positionError
    have e1 : 2 * u + u ^ 2 ≤ 201 / 100 * u := by nlinarith
    have e2 : (2 * u + u ^ 2) * (((vals.length - 1 : Nat) : K) + 0) ≤ 201 / 100 * u * (2 * κ) := by
      rw [add_zero]
      have : (0 : K) ≤ ((vals.length - 1 : Nat) : K) := Nat.cast_nonneg _
      have := hunits.1
      gcongr
    linarith
  obtain ⟨z, hz, rfl⟩ : ∃ z, rawCell s st x = some z ∧ clampIdx z (vals.length - 2) = c := by
    unfold linRegAxis at hrun
    split at hrun
    · cases hrun
    · next z hz =>
      split at hrun
      · cases hrun
      · cases hrun; exact ⟨z, hz, rfl⟩
  set c := clampIdx z (vals.length - 2) with hc
  have hcn : c + 1 < vals.length := hcell.1
  obtain ⟨f, hf1, hf2, hf3⟩ := hwh.ofUsize c (by omega)
  obtain ⟨m, hm1, hm2, hm3⟩ := hwh.ofUsize (vals.length - 1) (by omega)
  have hd1 : (1 : K) ≤ ((vals.length - 1 : Nat) : K) := by
    exact_mod_cast (by omega : 1 ≤ vals.length - 1)
  have hcK : (c : K) ≤ ((vals.length - 1 : Nat) : K) := by
    exact_mod_cast (by omega : c ≤ vals.length - 1)
  have hc0 : (0 : K) ≤ c := Nat.cast_nonneg c
  have hAc : |val s + val st * (c : K)| ≤ κ * val st := by
    have h1 := abs_le.1 hnodes.1
    have h3 := abs_le.1 hnodes.2
    have h4 : val st * (c : K) ≤ val st * ((vals.length - 1 : Nat) : K) := by gcongr
    have h5 : 0 ≤ val st * (c : K) := by positivity
    rw [abs_le]
    constructor <;> linarith [h1.1, h3.2]
  have hn0 := rounds_node h false hs hst hf2 hf3 hnodes.1 hAc hb.node
  have hn1 := rounds_node h false hs hst hm2 hm3 hnodes.1 hnodes.2 hb.node
  simp only [Bool.false_eq_true, if_false] at hn0 hn1
  have hne := nodeError_units hu hη hκ hpos hu1 hηs
  set e0 := 301 / 100 * (u * κ) + 101 / 100 * u with he0
  have he0s : e0 ≤ 1 / 20 := by linarith
  have hκ12 : (1 : K) / 2 ≤ κ := by linarith [hunits.1]
  have hst0 : val st ≤ 2 * (κ * val st) := by nlinarith
  set x0 := s +. st *. f with hx0
  have hx0a : |val x0| ≤ κ * val st + e0 * val st := by
    have := abs_sub_abs_le_abs_sub (val x0) (val s + val st * (c : K)); linarith [hn0.2]
  have he0st : e0 * val st ≤ 1 / 20 * val st := by gcongr
  have hsum : |val x0 + val st| ≤ (κ + 105 / 100) * val st := by
    have := abs_add_le (val x0) (val st); rw [abs_of_pos hpos] at this; linarith
  obtain ⟨hx1f, hx1e⟩ := h.add x0 st hn0.1 hst (hsum.trans (by
    have : 0 ≤ κ * val st := by positivity
    linarith))
  refine ⟨c, x0, x0 +. st, extrapHL s (s +. st *. m) x, q', ?_, hcell, hq'.trans hδ, ?_, ?_, hn0.1,
    hx1f, hn0.2.trans hne, ?_, ?_, ?_⟩
  · rw [RegularGrid1D.new_ok (by omega) hm1, Res.ok_bind, RegularGrid1D.at_ok h2 hsl hz hf1]
  · linarith
  · linarith
  · rw [show val (x0 +. st) - val x0 - val st = val (x0 +. st) - (val x0 + val st) by ring]
    refine hx1e.trans ?_
    calc u * |val x0 + val st| ≤ u * ((κ + 105 / 100) * val st) := by gcongr
      _ = _ := by ring
  · have hlow : ¬ (x <. s) = true := fun hlt => by
      have := (hcmp _ _ hx hs).1 hlt
      have := hin.1
      simp only [Nat.cast_zero, mul_zero, add_zero] at this
      linarith
    unfold extrapHL
    rw [if_neg hlow]
    split <;> simp
  · intro hex
    have hhi : (s +. st *. m <. x) = true := by
      unfold extrapHL at hex
      split at hex
      · assumption
      · split at hex <;> cases hex
    have hlt := (hcmp _ _ hn1.1 hx).1 hhi
    have hn1' := (abs_le.1 (hn1.2.trans hne)).1
    have hq : ((vals.length - 1 : Nat) : K) - e0 ≤ (val x - val s) / val st := by
      rw [le_div_iff₀ hpos]; linarith
    refine ⟨?_, hq⟩
    rcases hcell.2.2 with h0 | h0
    · omega
    · by_contra hne2
      have h3 : q' ≤ ((c + 1 : Nat) : K) := le_of_mul_le_mul_left (by simpa using h0) hpos
      have h4 : ((c + 1 : Nat) : K) + 1 ≤ ((vals.length - 1 : Nat) : K) := by
        exact_mod_cast (by omega : c + 1 + 1 ≤ vals.length - 1)
      have h5 := (abs_le.1 (hq'.trans hδ)).1
      linarith

/-- The weight that corresponds to the rounded nodes. -/
theorem sample_weight {s st x x0 x1 c κ : K} (hu : 0 ≤ u) (hst : 0 < st) (hκ : 0 ≤ κ)
    (hu1 : u ≤ 1 / 1000) (huκ : u * κ ≤ 1 / 100)
    (ht1 : -(402 / 100 * (u * κ) + u / 100) ≤ (x - s) / st - c)
    (ht2 : (x - s) / st - c ≤ 1 + (402 / 100 * (u * κ) + u / 100))
    (h0 : |x0 - (s + st * c)| ≤ (301 / 100 * (u * κ) + 101 / 100 * u) * st)
    (h1 : |x1 - x0 - st| ≤ (u * κ + 105 / 100 * u) * st) :
    97 / 100 * st ≤ x1 - x0 ∧ x1 - x0 ≤ 103 / 100 * st ∧
    |(x - x0) / (x1 - x0) - ((x - s) / st - c)| ≤ 43 / 10 * (u * κ) + 23 / 10 * u ∧
    |(x - x0) / (x1 - x0)| ≤ 6 / 5 := by
  have huκ0 : 0 ≤ u * κ := by positivity
  have h1' := abs_le.1 h1
  have hw : (u * κ + 105 / 100 * u) * st ≤ 12 / 1000 * st := by
    have : u * κ + 105 / 100 * u ≤ 12 / 1000 := by linarith
    gcongr
  have hw1 : 988 / 1000 * st ≤ x1 - x0 := by linarith
  have hw0 : 0 < x1 - x0 := by linarith
  set q := (x - s) / st with hq
  have hx : x = s + st * q := by rw [hq, mul_div_cancel₀ _ hst.ne']; ring
  have hqc : |q - c| ≤ 105 / 100 := by rw [abs_le]; constructor <;> linarith
  have hE : |(x - x0) / (x1 - x0) - (q - c)| ≤ 43 / 10 * (u * κ) + 23 / 10 * u := by
    have e : (x - x0) / (x1 - x0) - (q - c) =
        (-(x0 - (s + st * c)) - (x1 - x0 - st) * (q - c)) / (x1 - x0) := by
      rw [hx]; field_simp; ring
    rw [e, abs_div, abs_of_pos hw0, div_le_iff₀ hw0]
    have h3 := abs_sub (-(x0 - (s + st * c))) ((x1 - x0 - st) * (q - c))
    rw [abs_neg, abs_mul] at h3
    have h4 : |x1 - x0 - st| * |q - c| ≤ (u * κ + 105 / 100 * u) * st * (105 / 100) := by gcongr
    have h5 : (43 / 10 * (u * κ) + 23 / 10 * u) * (988 / 1000 * st) ≤
        (43 / 10 * (u * κ) + 23 / 10 * u) * (x1 - x0) := by gcongr
    have h6 : 0 ≤ u * κ * st := by positivity
    have h7 : 0 ≤ u * st := by positivity
    nlinarith
  refine ⟨by linarith, by linarith, hE, ?_⟩
  have h3 := abs_add_le ((x - x0) / (x1 - x0) - (q - c)) (q - c)
  rw [sub_add_cancel] at h3
  linarith

end

end Interpn
