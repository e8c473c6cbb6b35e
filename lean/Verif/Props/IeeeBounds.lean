import Verif.Props.Bounds
import Verif.Lemmas.IeeeBounds
import Verif.Lemmas.IeeeExamples

/-! C85: the bounds check in IEEE 754 arithmetic. -/

set_option autoImplicit false

namespace Interpn
open FloatOps Ieee

section
variable {f : Format} {N : Nat}

/-- C85, rectilinear grids: an axis with an observation beyond the tolerance is always flagged,
whatever is rounded or overflows; a flagged axis has an observation beyond `1 / (1 + u)` times the
tolerance, where `u` is `2^-53` for `f64` and `2^-24` for `f32`. -/
theorem C85_rectilinear (grids obs : Fin N → List (Ieee f)) (atol : Ieee f) (out : List Bool)
    (hout : out.length = N) (hg : ∀ k, grids k ≠ []) (hgrid : ∀ k, ∀ a ∈ grids k, Finite a)
    (hobs : ∀ k, ∀ x ∈ obs k, Finite x) (hatol : Finite atol) (h0 : 0 ≤ val atol) :
    ∃ flags : Fin N → Bool,
      checkBoundsRectilinear (List.ofFn grids) (List.ofFn obs) atol out =
        (.ok (), List.ofFn flags) ∧
      ∀ k, ((∃ x ∈ obs k, BeyondTolerance (val ((grids k).head (hg k)))
          (val ((grids k).getLast (hg k))) (val atol) (val x)) → flags k = true) ∧
        (flags k = true → ∃ x ∈ obs k, BeyondTolerance (val ((grids k).head (hg k)))
          (val ((grids k).getLast (hg k))) (val atol / (1 + f.unitRoundoff)) (val x)) := by
  obtain ⟨flags, h, hf⟩ := C39_flags grids obs atol out hout hg
  refine ⟨flags, h, fun k => ⟨fun ⟨x, hx, hb⟩ => (hf k).2 ⟨x, hx, ?_⟩, fun hk => ?_⟩⟩
  · have h1 := (sub_le_iff (hobs k x hx) (hgrid k _ (List.head_mem (hg k))) hatol h0).1
    have h2 := (le_sub_iff (hobs k x hx) (hgrid k _ (List.getLast_mem (hg k))) hatol h0).1
    rcases hb with hb | hb
    · exact .inl (h1 (by linarith))
    · exact .inr (h2 (by linarith))
  · obtain ⟨x, hx, hb⟩ := (hf k).1 hk
    have h1 := (sub_le_iff (hobs k x hx) (hgrid k _ (List.head_mem (hg k))) hatol h0).2
    have h2 := (le_sub_iff (hobs k x hx) (hgrid k _ (List.getLast_mem (hg k))) hatol h0).2
    refine ⟨x, hx, ?_⟩
    rcases hb with hb | hb
    · exact .inl (by linarith [h1 hb])
    · exact .inr (by linarith [h2 hb])

/-- C85, rectilinear grids, tolerance zero: exactly the axes with an observation that is not strictly
inside the range are flagged; rounding has no influence. -/
theorem C85_rectilinear_zero (grids obs : Fin N → List (Ieee f)) (out : List Bool)
    (hout : out.length = N) (hg : ∀ k, grids k ≠ []) (hgrid : ∀ k, ∀ a ∈ grids k, Finite a)
    (hobs : ∀ k, ∀ x ∈ obs k, Finite x) :
    ∃ flags : Fin N → Bool,
      checkBoundsRectilinear (List.ofFn grids) (List.ofFn obs) zero out =
        (.ok (), List.ofFn flags) ∧
      ∀ k, flags k = true ↔ ∃ x ∈ obs k, val x ≤ val ((grids k).head (hg k)) ∨
        val ((grids k).getLast (hg k)) ≤ val x := by
  obtain ⟨flags, h, hf⟩ := C85_rectilinear grids obs zero out hout hg hgrid hobs zero_eq.1
    zero_eq.2.ge
  refine ⟨flags, h, fun k => ⟨fun hk => ?_, fun hk => (hf k).1 ?_⟩⟩
  · simpa [BeyondTolerance, zero_eq] using (hf k).2 hk
  · simpa [BeyondTolerance, zero_eq] using hk

/-- The largest difference between the end of a regular axis and the end computed by the code. -/
def endError (f : Format) (d : Nat) (start step : ℚ) : ℚ :=
  f.unitRoundoff * |start + step * ((d - 1 : Nat) : ℚ)| +
    (1 + f.unitRoundoff) * (f.unitRoundoff * (step * ((d - 1 : Nat) : ℚ)) + f.underflow)

/-- The end of a regular axis as computed by the code. -/
theorem endError_spec {d : Nat} {s p m : Ieee f} (hd : d ≤ 2 ^ f.p + 1) (hs : Finite s)
    (hp : Finite p) (h0 : 0 ≤ val p) (hm : ofUsize (d - 1) = some m)
    (hbig : |val s| + (1 + f.unitRoundoff) * (val p * ((d - 1 : Nat) : ℚ)) + f.underflow ≤ f.omega) :
    Finite (s +. p *. m) ∧ val s ≤ val (s +. p *. m) ∧
      |val (s +. p *. m) - (val s + val p * ((d - 1 : Nat) : ℚ))| ≤ endError f d (val s) (val p) := by
  have hu := unitRoundoff_pos (f := f)
  have hη := f.underflow_pos
  obtain ⟨m', hm', hmf, hmv⟩ : ∃ m' : Ieee f, ofUsize (d - 1) = some m' ∧ Finite m' ∧
      val m' = ((d - 1 : Nat) : ℚ) := by
    rcases Nat.eq_zero_or_pos d with rfl | hpos
    · exact (exactWhole f (n := 2 ^ f.p + 1) le_rfl).ofUsize 0 (by positivity)
    · exact (exactWhole f (n := 2 ^ f.p + 1) le_rfl).ofUsize (d - 1) (by omega)
  rw [hm'] at hm; cases hm
  have hW : 0 ≤ val p * ((d - 1 : Nat) : ℚ) := by positivity
  have habs := abs_nonneg (val s)
  obtain ⟨h1, h2⟩ := (rounds f).mul p m hp hmf (by
    rw [hmv, abs_of_nonneg hW]; nlinarith)
  have h3 : 0 ≤ val (p *. m) := by
    obtain ⟨w, e⟩ := mul_fin hp hmf
    rw [e] at h1 ⊢
    rcases rnd_cases (f := f) w (val p * val m) with ⟨_, e2⟩ | ⟨e2, _⟩
    · rw [e2]; exact f.roundQ_nonneg (by rw [hmv]; exact hW)
    · rw [e2] at h1; exact h1.elim
  rw [hmv, abs_of_nonneg hW, abs_le] at h2
  have h4 : |val s + val (p *. m)| ≤ f.omega := by
    have := abs_add_le (val s) (val (p *. m))
    rw [abs_of_nonneg h3] at this
    linarith [h2.2]
  obtain ⟨h5, h6⟩ := (rounds f).add s (p *. m) hs h1 h4
  refine ⟨h5, ?_, ?_⟩
  · obtain ⟨w, e⟩ := add_fin hs h1
    have := rnd_of_le w h4
    rw [e, this.2]
    exact f.le_roundQ hs.repr (by linarith)
  · unfold endError
    generalize hD : val (p *. m) - val p * ((d - 1 : Nat) : ℚ) = D at h2
    have e1 : val s + val (p *. m) = val s + val p * ((d - 1 : Nat) : ℚ) + D := by rw [← hD]; ring
    rw [e1] at h6
    have e2 := abs_add_le (val s + val p * ((d - 1 : Nat) : ℚ)) D
    have e3 : |D| ≤ f.unitRoundoff * (val p * ((d - 1 : Nat) : ℚ)) + f.underflow := abs_le.2 h2
    have e4 := abs_add_le (val (s +. p *. m) - (val s + val p * ((d - 1 : Nat) : ℚ) + D)) D
    have e5 : val (s +. p *. m) - (val s + val p * ((d - 1 : Nat) : ℚ) + D) + D =
      val (s +. p *. m) - (val s + val p * ((d - 1 : Nat) : ℚ)) := by ring
    rw [e5] at e4
    have e6 := mul_le_mul_of_nonneg_left e2 hu.le
    have e7 := mul_le_mul_of_nonneg_left e3 hu.le
    linarith

/-- C85, regular grids: the same, up to the error of the computed end of the axis. -/
theorem C85_regular (dims : Fin N → Nat) (starts steps : Fin N → Ieee f) (obs : Fin N → List (Ieee f))
    (atol : Ieee f) (out : List Bool) (hout : out.length = N) (hd : ∀ k, 1 ≤ dims k)
    (hdims : ∀ k, dims k ≤ 2 ^ f.p + 1)
    (hfin : ∀ k, Finite (starts k) ∧ Finite (steps k)) (hpos : ∀ k, 0 < val (steps k))
    (hbig : ∀ k, |val (starts k)| + (1 + f.unitRoundoff) *
      (val (steps k) * ((dims k - 1 : Nat) : ℚ)) + f.underflow ≤ f.omega)
    (hobs : ∀ k, ∀ x ∈ obs k, Finite x) (hatol : Finite atol) (h0 : 0 ≤ val atol) :
    ∃ flags : Fin N → Bool,
      checkBoundsRegular (List.ofFn dims) (List.ofFn starts) (List.ofFn steps) (List.ofFn obs)
        atol out = (.ok (), List.ofFn flags) ∧
      ∀ k, ((∃ x ∈ obs k, BeyondTolerance (val (starts k))
          (val (starts k) + val (steps k) * ((dims k - 1 : Nat) : ℚ) +
            endError f (dims k) (val (starts k)) (val (steps k))) (val atol) (val x)) →
          flags k = true) ∧
        (flags k = true → ∃ x ∈ obs k, BeyondTolerance (val (starts k))
          (val (starts k) + val (steps k) * ((dims k - 1 : Nat) : ℚ) -
            endError f (dims k) (val (starts k)) (val (steps k)))
          (val atol / (1 + f.unitRoundoff)) (val x)) := by
  have hm : ∀ k, ∃ m : Ieee f, ofUsize (dims k - 1) = some m := fun k => ⟨_, rfl⟩
  choose m hm using hm
  obtain ⟨flags, h, hf⟩ := C38_flags dims starts steps obs atol out hout hd m hm
  have hend := fun k => endError_spec (hdims k) (hfin k).1 (hfin k).2 (hpos k).le (hm k) (hbig k)
  have nn : ∀ {a : Ieee f}, Finite a → a ≠ nan := fun h e => by rw [e] at h; exact h
  have hmin : ∀ k, fmin (starts k) (starts k +. steps k *. m k) = starts k := fun k => by
    have h1 : ((starts k +. steps k *. m k) <. starts k) = false := by
      rw [← Bool.not_eq_true, exactCompare f _ _ (hend k).1 (hfin k).1]
      exact not_lt.2 (hend k).2.1
    show (if _ then _ else if _ then _ else if _ then _ else _) = _
    rw [if_neg (nn (hfin k).1), if_neg (nn (hend k).1), if_neg (by rw [Bool.not_eq_true]; exact h1)]
  have hmax : ∀ k, val (fmax (starts k) (starts k +. steps k *. m k)) =
      val (starts k +. steps k *. m k) ∧ Finite (fmax (starts k) (starts k +. steps k *. m k)) :=
      fun k => by
    have e : fmax (starts k) (starts k +. steps k *. m k) =
      (if starts k <. (starts k +. steps k *. m k) then (starts k +. steps k *. m k) else starts k) := by
      show (if _ then _ else if _ then _ else if _ then _ else _) = _
      rw [if_neg (nn (hfin k).1), if_neg (nn (hend k).1)]
      rfl
    rw [e]
    split
    · exact ⟨rfl, (hend k).1⟩
    · next hc =>
      rw [exactCompare f _ _ (hfin k).1 (hend k).1] at hc
      exact ⟨le_antisymm (hend k).2.1 (not_lt.1 hc), (hfin k).1⟩
  refine ⟨flags, h, fun k => ⟨fun ⟨x, hx, hb⟩ => (hf k).2 ⟨x, hx, ?_⟩, fun hk => ?_⟩⟩
  · have he := abs_le.1 (hend k).2.2
    rw [hmin k]
    have h1 := (sub_le_iff (hobs k x hx) (hfin k).1 hatol h0).1
    have h2 := (le_sub_iff (hobs k x hx) (hmax k).2 hatol h0).1
    rw [(hmax k).1] at h2
    rcases hb with hb | hb
    · exact .inl (h1 (by linarith))
    · exact .inr (h2 (by linarith [he.2]))
  · have he := abs_le.1 (hend k).2.2
    obtain ⟨x, hx, hb⟩ := (hf k).1 hk
    rw [hmin k] at hb
    have h1 := (sub_le_iff (hobs k x hx) (hfin k).1 hatol h0).2
    have h2 := (le_sub_iff (hobs k x hx) (hmax k).2 hatol h0).2
    rw [(hmax k).1] at h2
    refine ⟨x, hx, ?_⟩
    rcases hb with hb | hb
    · exact .inl (by linarith [h1 hb])
    · exact .inr (by linarith [h2 hb, he.1])

end

/-- Hypotheses of `C85_rectilinear` are satisfied, and the conclusion is not weaker than it should be:
the observation is beyond the range by less than the tolerance, but the difference is rounded up to
the tolerance. -/
example : checkBoundsRectilinear (List.ofFn exGrids64)
      [[q64 (1 / 3), q64 (-1)], [q64 2]] (q64 1) [false, true] = (.ok (), [true, false]) ∧
    checkBoundsRectilinear [[q64 (-1 / 2 ^ 60), q64 1]] [[q64 (-1)]]
      (q64 1) [false] = (.ok (), [true]) ∧
    (∀ k, exGrids64 k ≠ []) ∧ (∀ k, ∀ a ∈ exGrids64 k, Finite a) ∧ 0 ≤ val (q64 1) := by
  decide +kernel

/-- Hypotheses of `C85_regular` are satisfied by the axes 0, 0.1, 0.2, 0.3 and 1, 3; the computed end
of the first is 0.30000000000000004. -/
example : ∃ flags : Fin 2 → Bool, checkBoundsRegular (List.ofFn ![4, 2])
      (List.ofFn ![q64 0, q64 1]) (List.ofFn ![q64 (1 / 10), q64 2])
      (List.ofFn ![[q64 (3 / 10)], [q64 1]]) zero [false, false] = (.ok (), List.ofFn flags) ∧
      flags 0 = false ∧ flags 1 = true := by
  obtain ⟨flags, h, -⟩ := C85_regular ![4, 2] ![q64 0, q64 1] ![q64 (1 / 10), q64 2]
    ![[q64 (3 / 10)], [q64 1]] zero [false, false] rfl (by decide) (by decide) (by decide +kernel)
    (by decide +kernel) (by decide +kernel) (by decide +kernel) (by decide +kernel) (by decide +kernel)
  refine ⟨flags, h, ?_⟩
  have h2 : checkBoundsRegular (List.ofFn ![4, 2])
      (List.ofFn ![q64 0, q64 1]) (List.ofFn ![q64 (1 / 10), q64 2])
      (List.ofFn ![[q64 (3 / 10)], [q64 1]]) zero [false, false] = (.ok (), [false, true]) := by
    decide +kernel
  rw [h2] at h
  have h3 : [false, true] = List.ofFn flags := congrArg Prod.snd h
  simp only [List.ofFn_succ, List.ofFn_zero, List.cons.injEq] at h3
  exact ⟨h3.1.symm, h3.2.1.symm⟩

end Interpn
