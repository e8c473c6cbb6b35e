import Verif.Props.Utils
import Verif.Lemmas.IeeeBounds
import Verif.Lemmas.IeeeMono
import Verif.Lemmas.IeeeConst
import Verif.Lemmas.IeeeExamples

/-! C88: `linspace` in IEEE 754 arithmetic. -/

set_option autoImplicit false
set_option exponentiation.threshold 1100

namespace Interpn
open FloatOps Ieee

section
variable {u η k D M Ω : ℚ}

theorem linspace_big (hu : 0 ≤ u) (hη : 0 ≤ η) (hk : 1 ≤ k) (hD : 0 ≤ D) (hM : 0 ≤ M)
    (hbig : M + (1 + u) ^ 3 * D + (k * (1 + u) + 1) * η ≤ Ω) :
    D ≤ Ω ∧ D + 2 * (u * D) + u * (u * D) + k * η ≤ Ω ∧
      M + (3 * (u * D) + 3 * (u * (u * D)) + u * (u * (u * D)) + k * η + u * (k * η) + η) ≤ Ω := by
  have c3 : (1 + u) ^ 3 * D = D + 3 * (u * D) + 3 * (u * (u * D)) + u * (u * (u * D)) := by ring
  have c5 : (k * (1 + u) + 1) * η = k * η + u * (k * η) + η := by ring
  have h1 : 0 ≤ u * D := by positivity
  have h2 : 0 ≤ u * (u * D) := by positivity
  have h3 : 0 ≤ u * (u * (u * D)) := by positivity
  have h4 : 0 ≤ k * η := by positivity
  have h5 : 0 ≤ u * (k * η) := by positivity
  rw [c3, c5] at hbig
  exact ⟨by linarith, by linarith, by linarith⟩

theorem linspace_diff {s E : ℚ} (_ : 0 ≤ u) (hk : 1 ≤ k) (se : |s - E| ≤ u * |E|) :
    |s| ≤ |E| + u * |E| ∧ |s / k| ≤ |E| + u * |E| := by
  have h := abs_add_le (s - E) E
  rw [sub_add_cancel] at h
  have h2 : |s / k| ≤ |s| := by
    rw [abs_div, abs_of_pos (by linarith : 0 < k)]
    exact div_le_self (abs_nonneg _) hk
  exact ⟨by linarith, by linarith⟩

theorem linspace_prod {s E dx i : ℚ} (hu : 0 ≤ u) (_ : 0 ≤ η) (hk : 1 ≤ k) (hi0 : 0 ≤ i) (hik : i ≤ k)
    (se : |s - E| ≤ u * |E|) (de : |dx - s / k| ≤ u * |s / k| + η) :
    |i * dx - i * (E / k)| ≤ 2 * (u * |E|) + u * (u * |E|) + k * η ∧
      |i * dx| ≤ |E| + 2 * (u * |E|) + u * (u * |E|) + k * η := by
  have hk0 : 0 < k := by linarith
  have sD := (linspace_diff hu hk se).1
  have e1 : |dx - E / k| * k ≤ 2 * (u * |E|) + u * (u * |E|) + k * η := by
    have h1 : |dx - E / k| ≤ |dx - s / k| + |s - E| / k := by
      have := abs_add_le (dx - s / k) ((s - E) / k)
      rw [abs_div (s - E), abs_of_pos hk0] at this
      refine le_trans (le_of_eq ?_) this
      congr 1; ring
    have h2 : |s - E| / k * k = |s - E| := div_mul_cancel₀ _ hk0.ne'
    have h6 : |s / k| * k = |s| := by
      rw [abs_div, abs_of_pos hk0, div_mul_cancel₀ _ hk0.ne']
    have h3 := mul_le_mul_of_nonneg_right h1 hk0.le
    have h4 := mul_le_mul_of_nonneg_right de hk0.le
    have h5 : u * |s| ≤ u * (|E| + u * |E|) := mul_le_mul_of_nonneg_left sD hu
    have e3 : (|dx - s / k| + |s - E| / k) * k = |dx - s / k| * k + |s - E| := by rw [add_mul, h2]
    have e4 : (u * |s / k| + η) * k = u * |s| + k * η := by rw [← h6]; ring
    rw [e3] at h3
    rw [e4] at h4
    linarith
  have p1 : |i * dx - i * (E / k)| ≤ 2 * (u * |E|) + u * (u * |E|) + k * η := by
    rw [← mul_sub, abs_mul, abs_of_nonneg hi0, mul_comm]
    exact (mul_le_mul_of_nonneg_left hik (abs_nonneg _)).trans e1
  have hiE : |i * (E / k)| ≤ |E| := by
    rw [abs_mul, abs_of_nonneg hi0, abs_div, abs_of_pos hk0]
    have h1 : |E| / k * k = |E| := div_mul_cancel₀ _ hk0.ne'
    have h2 := mul_le_mul_of_nonneg_right hik (by positivity : 0 ≤ |E| / k)
    linarith
  refine ⟨p1, ?_⟩
  have := abs_add_le (i * dx - i * (E / k)) (i * (E / k))
  rw [sub_add_cancel] at this
  linarith

theorem linspace_sum {a b dx i p : ℚ} (hu : 0 ≤ u) (hk : 1 ≤ k) (hi0 : 0 ≤ i) (hik : i ≤ k)
    (p1 : |i * dx - i * ((b - a) / k)| ≤ 2 * (u * |b - a|) + u * (u * |b - a|) + k * η)
    (p2 : |i * dx| ≤ |b - a| + 2 * (u * |b - a|) + u * (u * |b - a|) + k * η)
    (pe : |p - i * dx| ≤ u * |i * dx| + η) :
    |p - i * ((b - a) / k)| ≤ 3 * (u * |b - a|) + 3 * (u * (u * |b - a|)) +
      u * (u * (u * |b - a|)) + k * η + u * (k * η) + η ∧
    |a + p| ≤ max |a| |b| + (3 * (u * |b - a|) + 3 * (u * (u * |b - a|)) +
      u * (u * (u * |b - a|)) + k * η + u * (k * η) + η) := by
  have hk0 : 0 < k := by linarith
  have P : |p - i * ((b - a) / k)| ≤ 3 * (u * |b - a|) + 3 * (u * (u * |b - a|)) +
      u * (u * (u * |b - a|)) + k * η + u * (k * η) + η := by
    have h1 := abs_add_le (p - i * dx) (i * dx - i * ((b - a) / k))
    rw [sub_add_sub_cancel] at h1
    have h2 := mul_le_mul_of_nonneg_left p2 hu
    linarith
  have hX : |a + i * ((b - a) / k)| ≤ max |a| |b| := by
    have h1 : a + i * ((b - a) / k) = a * (1 - i / k) + b * (i / k) := by field_simp; ring
    have h2 : 0 ≤ i / k := by positivity
    have h3 : i / k ≤ 1 := (div_le_one hk0).2 hik
    have h4 : |a| ≤ max |a| |b| := le_max_left _ _
    have h5 : |b| ≤ max |a| |b| := le_max_right _ _
    generalize max |a| |b| = M at *
    rw [abs_le] at h4 h5 ⊢
    rw [h1]
    generalize i / k = t at *
    clear * - h2 h3 h4 h5
    constructor <;> nlinarith
  refine ⟨P, ?_⟩
  have h1 := abs_add_le (a + i * ((b - a) / k)) (p - i * ((b - a) / k))
  rw [add_add_sub_cancel] at h1
  linarith

theorem linspace_final {a p r X i E D : ℚ} (hu : 0 ≤ u) (re : |r - (a + p)| ≤ u * |a + p|)
    (q1 : |p - i * (E / k)| ≤ 3 * (u * D) + 3 * (u * (u * D)) + u * (u * (u * D)) + k * η +
      u * (k * η) + η)
    (q2 : |a + p| ≤ X + (3 * (u * D) + 3 * (u * (u * D)) + u * (u * (u * D)) + k * η +
      u * (k * η) + η)) :
    |r - (a + i * E / k)| ≤ u * X + (1 + u) * (((1 + u) ^ 3 - 1) * D + (k * (1 + u) + 1) * η) := by
  have h1 := abs_add_le (r - (a + p)) (p - i * (E / k))
  have e : r - (a + p) + (p - i * (E / k)) = r - (a + i * E / k) := by ring
  rw [e] at h1
  have h6 := mul_le_mul_of_nonneg_left q2 hu
  linarith

end

section
variable {f : Format}

/-- C88: the entries of `linspace` differ from the evenly spaced points by rounding only. -/
theorem C88_accuracy (start stop : Ieee f) (n : Nat) (hn : 2 ≤ n) (hp : n ≤ 2 ^ f.p + 1)
    (hu64 : n ≤ usizeMax) (hs : Finite start) (ht : Finite stop)
    (hbig : max |val start| |val stop| + (1 + f.unitRoundoff) ^ 3 * |val stop - val start| +
      (((n - 1 : Nat) : ℚ) * (1 + f.unitRoundoff) + 1) * f.underflow ≤ f.omega) :
    ∃ l, linspace start stop n = .ok l ∧ l.length = n ∧ ∀ i, i < n → ∃ r, l[i]? = some r ∧ Ieee.Finite r ∧
      |val r - (val start + i * (val stop - val start) / ((n : ℚ) - 1))| ≤
        f.unitRoundoff * max |val start| |val stop| + (1 + f.unitRoundoff) *
          (((1 + f.unitRoundoff) ^ 3 - 1) * |val stop - val start| +
            (((n - 1 : Nat) : ℚ) * (1 + f.unitRoundoff) + 1) * f.underflow) := by
  have hu := unitRoundoff_pos (f := f)
  have hη := f.underflow_pos
  have hR := rounds f
  obtain ⟨l, m, hl, hm, hlen, hall⟩ := C47_entries (totalOfUsize f) start stop n (by omega) hu64
  refine ⟨l, hl, hlen, fun i hi => ?_⟩
  obtain ⟨fi, hfi, hli⟩ := hall i hi
  refine ⟨_, hli, ?_⟩
  obtain ⟨m', hm', hmf, hmv⟩ := (exactWhole f (n := 2 ^ f.p + 1) le_rfl).ofUsize (n - 1) (by omega)
  obtain ⟨fi', hfi', hif, hiv⟩ := (exactWhole f (n := 2 ^ f.p + 1) le_rfl).ofUsize i (by omega)
  rw [hm'] at hm; cases hm
  rw [hfi'] at hfi; cases hfi
  have hmr : ((n : ℚ) - 1) = ((n - 1 : Nat) : ℚ) := by
    rw [Nat.cast_sub (by omega), Nat.cast_one]
  rw [hmr]
  have hk1 : (1 : ℚ) ≤ ((n - 1 : Nat) : ℚ) := by exact_mod_cast (by omega : 1 ≤ n - 1)
  have hik : (i : ℚ) ≤ ((n - 1 : Nat) : ℚ) := by exact_mod_cast (by omega : i ≤ n - 1)
  have hi0 : (0 : ℚ) ≤ i := Nat.cast_nonneg i
  generalize ((n - 1 : Nat) : ℚ) = k at *
  generalize (i : ℚ) = j at *
  generalize f.unitRoundoff = u at *
  generalize f.underflow = η at *
  obtain ⟨b1, b2, b3⟩ := linspace_big hu.le hη.le hk1 (abs_nonneg (val stop - val start))
    ((abs_nonneg _).trans (le_max_left _ _)) hbig
  -- the difference, the step, the product, the sum
  obtain ⟨sf, se⟩ := hR.sub stop start ht hs b1
  have s1 := linspace_diff hu.le hk1 se
  obtain ⟨df, de⟩ := hR.div (stop -. start) m sf hmf (by rw [hmv]; linarith) (by
    rw [hmv]
    refine s1.2.trans (le_trans ?_ b2)
    have h1 : 0 ≤ u * (u * |val stop - val start|) := by positivity
    have h2 : 0 ≤ u * |val stop - val start| := by positivity
    have h3 : 0 ≤ k * η := by positivity
    linarith)
  rw [hmv] at de
  have p1 := linspace_prod hu.le hη.le hk1 hi0 hik se de
  obtain ⟨pf, pe⟩ := hR.mul fi ((stop -. start) /. m) hif df (by rw [hiv]; exact p1.2.trans b2)
  rw [hiv] at pe
  have q1 := linspace_sum (a := val start) (b := val stop) hu.le hk1 hi0 hik p1.1 p1.2 pe
  obtain ⟨rf, re⟩ := hR.add start (fi *. ((stop -. start) /. m)) hs pf (q1.2.trans b3)
  refine ⟨rf, linspace_final hu.le re q1.1 q1.2⟩

/-- C88: for `start <= stop` and without overflow of `stop - start`, the first entry is `start` and
the entries do not decrease. -/
theorem C88_sorted (start stop : Ieee f) (n : Nat) (hn : 2 ≤ n) (hu64 : n ≤ usizeMax)
    (he : 64 ≤ f.emax) (hs : Finite start) (ht : Finite stop) (hle : val start ≤ val stop)
    (hbig : val stop - val start ≤ f.omega) :
    ∃ l, linspace start stop n = .ok l ∧ l.length = n ∧
      (∃ r, l[0]? = some r ∧ Ieee.Finite r ∧ val r = val start) ∧
      ∀ (i j : Nat) (a b : Ieee f), i ≤ j → l[i]? = some a → l[j]? = some b → (b <. a) = false := by
  obtain ⟨l, m, hl, hm, hlen, hall⟩ := C47_entries (totalOfUsize f) start stop n (by omega) hu64
  have hcast : ∀ i ≤ usizeMax, ∃ x : Ieee f, ofUsize i = some x ∧ Finite x ∧ 0 ≤ val x ∧
      val x = f.roundQ i := fun i hi => by
    obtain ⟨x, hx, hxf⟩ := ofUsize_fin f i hi he
    refine ⟨x, hx, hxf, ?_⟩
    have e : x = rnd f false i := (Option.some.inj hx).symm
    rw [e] at hxf ⊢
    rcases rnd_cases (f := f) false (i : ℚ) with h | ⟨h, -⟩
    · rw [h.2]; exact ⟨f.roundQ_nonneg (by positivity), rfl⟩
    · rw [h] at hxf; exact hxf.elim
  obtain ⟨m', hm', hmf, hm0, hmv⟩ := hcast (n - 1) (by omega)
  rw [hm'] at hm; cases hm
  have hmpos : 1 ≤ val m := by
    rw [hmv]
    exact f.le_roundQ f.one_repr (by exact_mod_cast (by omega : 1 ≤ n - 1))
  -- the step
  have hd : Finite (stop -. start) ∧ 0 ≤ val (stop -. start) := by
    obtain ⟨w, e⟩ := sub_fin ht hs
    have h0 : 0 ≤ val stop - val start := by linarith
    have := rnd_of_le (f := f) w (q := val stop - val start) (by rw [abs_of_nonneg h0]; exact hbig)
    rw [e, this.2]
    exact ⟨this.1, f.roundQ_nonneg h0⟩
  have hdx : Finite ((stop -. start) /. m) ∧ 0 ≤ val ((stop -. start) /. m) := by
    obtain ⟨w, e⟩ := div_fin hd.1 hmf (by linarith)
    have h0 : 0 ≤ val (stop -. start) / val m := div_nonneg hd.2 (by linarith)
    have h1 : val (stop -. start) / val m ≤ f.omega := by
      have := abs_le.1 hd.1.repr.le_omega
      exact (div_le_self hd.2 hmpos).trans this.2
    have := rnd_of_le (f := f) w (q := val (stop -. start) / val m) (by rw [abs_of_nonneg h0]; exact h1)
    rw [e, this.2]
    exact ⟨this.1, f.roundQ_nonneg h0⟩
  generalize ((stop -. start) /. m) = dx at *
  -- an entry
  refine ⟨l, hl, hlen, ?_, ?_⟩
  · obtain ⟨f0, h0, h1⟩ := hall 0 (by omega)
    obtain ⟨x, hx, hxf, hx0, hxv⟩ := hcast 0 (by omega)
    rw [hx] at h0; cases h0
    have hz : val f0 = 0 := by rw [hxv, Nat.cast_zero, f.roundQ_zero]
    refine ⟨_, h1, ?_⟩
    obtain ⟨w, e⟩ := mul_fin hxf hdx.1
    have hp := rnd_of_repr (f := f) w f.zero_repr
    rw [hz, zero_mul] at e
    rw [← e] at hp
    obtain ⟨w', e'⟩ := add_fin hs hp.1
    have := rnd_of_repr (f := f) w' hs.repr
    rw [hp.2, add_zero] at e'
    rw [e']
    exact this
  · intro i j a b hij ha hb
    have hj : j < n := by
      rw [← hlen]; exact (List.getElem?_eq_some_iff.1 hb).1
    obtain ⟨fi, h1, h2⟩ := hall i (by omega)
    obtain ⟨fj, h3, h4⟩ := hall j hj
    rw [ha] at h2; cases h2
    rw [hb] at h4; cases h4
    obtain ⟨xi, g1, g2, g3, g4⟩ := hcast i (by omega)
    obtain ⟨xj, g5, g6, g7, g8⟩ := hcast j (by omega)
    rw [g1] at h1; cases h1
    rw [g5] at h3; cases h3
    have hmono : val fi * val dx ≤ val fj * val dx := by
      have : val fi ≤ val fj := by
        rw [g4, g8]; exact f.roundQ_mono (by exact_mod_cast hij)
      exact mul_le_mul_of_nonneg_right this hdx.2
    have hp := f.roundQ_mono hmono
    obtain ⟨w, e⟩ := mul_fin g2 hdx.1
    obtain ⟨w', e'⟩ := mul_fin g6 hdx.1
    rw [e, e']
    have pos : 0 ≤ val fi * val dx := mul_nonneg g3 hdx.2
    have pos' : 0 ≤ val fj * val dx := mul_nonneg g7 hdx.2
    rcases rnd_cases (f := f) w' (val fj * val dx) with ⟨b1, b2⟩ | ⟨b1, b2⟩
    · rcases rnd_cases (f := f) w (val fi * val dx) with ⟨a1, a2⟩ | ⟨a1, a2⟩
      · obtain ⟨v, q⟩ := add_fin hs a1
        obtain ⟨v', q'⟩ := add_fin hs b1
        rw [q, q']
        exact rnd_mono _ _ (by rw [a2, b2]; linarith)
      · exfalso
        rw [abs_of_nonneg (f.roundQ_nonneg pos)] at a2
        have := abs_le.1 b1.repr.le_omega
        rw [b2] at this
        linarith [this.2]
    · rw [b1, decide_eq_false (by linarith)]
      obtain ⟨s0, q0, r0, w0, rfl⟩ := hs.cases
      have : ((fin s0 q0 r0 w0 : Ieee f) +. inf false) = inf false := rfl
      rw [this]
      generalize ((fin s0 q0 r0 w0 : Ieee f) +. rnd f w (val fi * val dx)) = z
      cases z with
      | fin => rfl
      | nan => rfl
      | inf s => cases s <;> rfl

/-- C88: with `n = 1` the only entry is NaN, whatever `start` and `stop` are. -/
theorem C88_single (start stop : Ieee f) : linspace start stop 1 = .ok [nan] := by
  have hm : (ofUsize 0 : Option (Ieee f)) = some (rnd f false 0) := rfl
  have hz : rnd f false 0 = (zero : Ieee f) := by
    unfold rnd
    have h : |f.roundQ 0| ≤ f.omega := by rw [f.roundQ_zero, abs_zero]; exact f.omega_pos.le
    rw [dif_pos h]
    show fin _ _ _ _ = fin _ _ _ _
    simp only [f.roundQ_zero, if_true]
  rw [hz] at hm
  have hr : linspace start stop 1 =
      .ok [start +. zero *. ((stop -. start) /. (zero : Ieee f))] := by
    unfold linspace ofUsizeUnwrap
    rw [usub_ok le_rfl, Res.ok_bind]
    simp only [Nat.sub_self, hm, Res.ok_bind, mapRange, Res.pure_eq]
  rw [hr]
  have h1 : ((stop -. start) /. (zero : Ieee f)) = nan ∨ ∃ s, ((stop -. start) /. (zero : Ieee f)) = inf s := by
    generalize (stop -. start) = d
    cases d with
    | nan => exact .inl rfl
    | inf s => exact .inr ⟨_, rfl⟩
    | fin s q hq hw =>
      by_cases h : q = 0
      · left
        show (if (0 : ℚ) = 0 then (if q = 0 then nan else inf (xor s false)) else rnd f (xor s false) (q / 0)) = nan
        rw [if_pos rfl, if_pos h]
      · right
        refine ⟨xor s false, ?_⟩
        show (if (0 : ℚ) = 0 then (if q = 0 then nan else inf (xor s false)) else rnd f (xor s false) (q / 0)) = _
        rw [if_pos rfl, if_neg h]
  have h2 : (zero *. ((stop -. start) /. (zero : Ieee f)) : Ieee f) = nan := by
    rcases h1 with h | ⟨s, h⟩ <;> rw [h]
    · rfl
    · show (if (0 : ℚ) = 0 then nan else inf (xor false s)) = nan
      rw [if_pos rfl]
  rw [h2]
  cases start <;> rfl

end

/-- Simplified constants. -/
theorem linspace_simple {u η M X D n : ℚ} (hu0 : 0 ≤ u) (hu : u ≤ 1 / 1000) (hη : 0 ≤ η)
    (hX0 : 0 ≤ X) (hX : X ≤ M) (hD0 : 0 ≤ D) (hD : D ≤ 2 * M) (hn : 2 ≤ n) :
    u * X + (1 + u) * (((1 + u) ^ 3 - 1) * D + ((n - 1) * (1 + u) + 1) * η) ≤
      8 * u * M + 2 * n * η ∧
    X + (1 + u) ^ 3 * D + ((n - 1) * (1 + u) + 1) * η ≤ 4 * M + 2 * n * η := by
  have h1 : (1 + u) ^ 3 - 1 ≤ 301 / 100 * u := by nlinarith [mul_nonneg hu0 hu0]
  have h2 : ((1 + u) ^ 3 - 1) * D ≤ 301 / 100 * u * (2 * M) :=
    mul_le_mul h1 hD hD0 (by positivity)
  have h3 : (n - 1) * (1 + u) + 1 ≤ 101 / 100 * n := by nlinarith
  have h4 := mul_le_mul_of_nonneg_right h3 hη
  have hM0 : 0 ≤ M := hX0.trans hX
  have hnη : 0 ≤ n * η := by positivity
  have huM : 0 ≤ u * M := by positivity
  have hle : ((1 + u) ^ 3 - 1) * D + ((n - 1) * (1 + u) + 1) * η ≤
      301 / 100 * u * (2 * M) + 101 / 100 * n * η := by linarith
  have h5 := mul_le_mul_of_nonneg_left hle (by linarith : 0 ≤ 1 + u)
  have h6 : u * X ≤ u * M := mul_le_mul_of_nonneg_left hX hu0
  constructor
  · nlinarith
  · nlinarith

/-- C88, `f64`: each entry is within `8 * 2^-53 M` (plus `2 n 2^-1075` for underflow) of the evenly
spaced point, where `M` bounds the ends. -/
theorem C88_accuracy_f64 (start stop : F64) (n : Nat) (hn : 2 ≤ n) (hp : n ≤ 2 ^ 53)
    (hs : Finite start) (ht : Finite stop) (M : ℚ) (hM : |val start| ≤ M ∧ |val stop| ≤ M)
    (hbig : M ≤ 2 ^ 1020) :
    ∃ l, linspace start stop n = .ok l ∧ l.length = n ∧ ∀ i, i < n → ∃ r, l[i]? = some r ∧ Ieee.Finite r ∧
      |val r - (val start + i * (val stop - val start) / ((n : ℚ) - 1))| ≤
        8 * (1 / 2 ^ 53) * M + 2 * n * (1 / 2 ^ 1075) := by
  have hΩ := binary64_Ω
  have hn1 : ((n - 1 : Nat) : ℚ) = (n : ℚ) - 1 := by rw [Nat.cast_sub (by omega), Nat.cast_one]
  have hn3 : (n : ℚ) ≤ 2 ^ 53 := by exact_mod_cast hp
  have hs' := linspace_simple (u := 1 / 2 ^ 53) (η := 1 / 2 ^ 1075) (n := n) (by positivity)
    (by norm_num) (by positivity) ((abs_nonneg _).trans (le_max_left _ _)) (max_le hM.1 hM.2)
    (abs_nonneg (val stop - val start))
    (by have := abs_sub (val stop) (val start); linarith [hM.1, hM.2]) (by exact_mod_cast hn)
  obtain ⟨l, h1, h2, h3⟩ := C88_accuracy (f := Format.binary64) start stop n hn (hp.trans (by decide))
    (hp.trans (by decide)) hs ht (by
      rw [binary64_u, binary64_η, hn1]
      refine hs'.2.trans (le_trans ?_ hΩ)
      have e1 : 2 * (n : ℚ) * (1 / 2 ^ 1075) ≤ 2 * 2 ^ 53 * (1 / 2 ^ 1075) := by gcongr
      have e2 : (2 : ℚ) * 2 ^ 53 * (1 / 2 ^ 1075) ≤ 1 := by norm_num
      have e4 : (4 : ℚ) * 2 ^ 1020 + 1 ≤ 2 ^ 1023 := by norm_num
      linarith)
  refine ⟨l, h1, h2, fun i hi => ?_⟩
  obtain ⟨r, a1, a2, a3⟩ := h3 i hi
  rw [binary64_u, binary64_η, hn1] at a3
  exact ⟨r, a1, a2, a3.trans hs'.1⟩

/-- C88, `f32`. -/
theorem C88_accuracy_f32 (start stop : F32) (n : Nat) (hn : 2 ≤ n) (hp : n ≤ 2 ^ 24)
    (hs : Finite start) (ht : Finite stop) (M : ℚ) (hM : |val start| ≤ M ∧ |val stop| ≤ M)
    (hbig : M ≤ 2 ^ 124) :
    ∃ l, linspace start stop n = .ok l ∧ l.length = n ∧ ∀ i, i < n → ∃ r, l[i]? = some r ∧ Ieee.Finite r ∧
      |val r - (val start + i * (val stop - val start) / ((n : ℚ) - 1))| ≤
        8 * (1 / 2 ^ 24) * M + 2 * n * (1 / 2 ^ 150) := by
  have hΩ := binary32_Ω
  have hn1 : ((n - 1 : Nat) : ℚ) = (n : ℚ) - 1 := by rw [Nat.cast_sub (by omega), Nat.cast_one]
  have hn3 : (n : ℚ) ≤ 2 ^ 24 := by exact_mod_cast hp
  have hs' := linspace_simple (u := 1 / 2 ^ 24) (η := 1 / 2 ^ 150) (n := n) (by positivity)
    (by norm_num) (by positivity) ((abs_nonneg _).trans (le_max_left _ _)) (max_le hM.1 hM.2)
    (abs_nonneg (val stop - val start))
    (by have := abs_sub (val stop) (val start); linarith [hM.1, hM.2]) (by exact_mod_cast hn)
  obtain ⟨l, h1, h2, h3⟩ := C88_accuracy (f := Format.binary32) start stop n hn (hp.trans (by decide))
    (hp.trans (by decide)) hs ht (by
      rw [binary32_u, binary32_η, hn1]
      refine hs'.2.trans (le_trans ?_ hΩ)
      have e1 : 2 * (n : ℚ) * (1 / 2 ^ 150) ≤ 2 * 2 ^ 24 * (1 / 2 ^ 150) := by gcongr
      have e2 : (2 : ℚ) * 2 ^ 24 * (1 / 2 ^ 150) ≤ 1 := by norm_num
      have e4 : (4 : ℚ) * 2 ^ 124 + 1 ≤ 2 ^ 127 := by norm_num
      linarith)
  refine ⟨l, h1, h2, fun i hi => ?_⟩
  obtain ⟨r, a1, a2, a3⟩ := h3 i hi
  rw [binary32_u, binary32_η, hn1] at a3
  exact ⟨r, a1, a2, a3.trans hs'.1⟩

/-- Hypotheses of `C88_accuracy_f64` and `C88_sorted` are satisfied. -/
example : (∃ l, linspace (q64 (1 / 10)) (q64 1) 1000 = .ok l ∧ ∀ i : Nat, i < 1000 → ∃ r, l[i]? = some r ∧
      |val r - (val (q64 (1 / 10)) + i * (val (q64 1) - val (q64 (1 / 10))) / (((1000 : Nat) : ℚ) - 1))| ≤
        1 / 10 ^ 15) ∧
    ∃ l, linspace (q64 (1 / 10)) (q64 1) 1000 = .ok l ∧
      ∀ (i j : Nat) (a b : F64), i ≤ j → l[i]? = some a → l[j]? = some b → (b <. a) = false := by
  constructor
  · obtain ⟨l, h1, -, h3⟩ := C88_accuracy_f64 (q64 (1 / 10)) (q64 1) 1000 (by norm_num) (by norm_num)
      (by decide +kernel) (by decide +kernel) 1 (by decide +kernel) (by norm_num)
    refine ⟨l, h1, fun i hi => ?_⟩
    obtain ⟨r, a1, -, a3⟩ := h3 i hi
    exact ⟨r, a1, a3.trans (by norm_num)⟩
  · obtain ⟨l, h1, -, -, h3⟩ := C88_sorted (q64 (1 / 10)) (q64 1) 1000 (by norm_num) (by decide)
      (by decide) (by decide +kernel) (by decide +kernel) (by decide +kernel) (by decide +kernel)
    exact ⟨l, h1, h3⟩

/-- Hypotheses of `C88_accuracy_f32` are satisfied. -/
example : ∃ l, linspace (q32 (1 / 10)) (q32 1) 1000 = .ok l ∧ ∀ i : Nat, i < 1000 → ∃ r, l[i]? = some r ∧
      |val r - (val (q32 (1 / 10)) + i * (val (q32 1) - val (q32 (1 / 10))) / (((1000 : Nat) : ℚ) - 1))| ≤
        1 / 10 ^ 6 := by
  obtain ⟨l, h1, -, h3⟩ := C88_accuracy_f32 (q32 (1 / 10)) (q32 1) 1000 (by norm_num) (by norm_num)
    (by decide +kernel) (by decide +kernel) 1 (by decide +kernel) (by norm_num)
  refine ⟨l, h1, fun i hi => ?_⟩
  obtain ⟨r, a1, -, a3⟩ := h3 i hi
  exact ⟨r, a1, a3.trans (by norm_num)⟩

/-- The last entry need not be `stop`: with 50 points from 0 to 1 it is `1 - 2^-53`, although the
documentation says that the end point is included. -/
theorem C88_endpoint_counterexample :
    ∃ l, linspace (q64 0) (q64 1) 50 = .ok l ∧ l[49]? = some (q64 (1 - 1 / 2 ^ 53)) ∧
      q64 (1 - 1 / 2 ^ 53) ≠ q64 1 := by
  have h : ∃ l, linspace (q64 0) (q64 1) 50 = .ok l := by
    obtain ⟨l, -, h, -⟩ := C47_entries (totalOfUsize _) (q64 0) (q64 1) 50 (by norm_num) (by decide)
    exact ⟨l, h⟩
  obtain ⟨l, hl⟩ := h
  refine ⟨l, hl, ?_, by decide +kernel⟩
  have : (match linspace (q64 0) (q64 1) 50 with
    | .ok l => l[49]?
    | _ => none) = some (q64 (1 - 1 / 2 ^ 53)) := by decide +kernel
  rwa [hl] at this

end Interpn
