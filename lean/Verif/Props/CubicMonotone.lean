import Verif.Lemmas.CubicMono
import Verif.Lemmas.Interpolant
import Verif.Props.MulticubicExact
import Verif.Lemmas.ExampleGrids
import Verif.Lemmas.RatOps
import Mathlib.Tactic.FinCases
import Mathlib.Tactic.IntervalCases
import Mathlib.Tactic.NormNum

/-! C134: when multicubic interpolation of increasing data is increasing. (Multilinear interpolation
always is, C51.) -/

set_option autoImplicit false
set_option linter.unusedSectionVars false

namespace Interpn

section
variable {K : Type} [Field K] [LinearOrder K] [IsStrictOrderedRing K] [FloorRing K] {N : Nat}

theorem update_fits {G : Axes K N} {m : Nat} {vals : List K} (hG : G.Valid m vals) (hm : 2 ≤ m)
    {x : Fin N → K} {lo : Int} (hlo : lo ≤ 0) (hx : G.StepsFit lo x) (j : Fin N) {i : Nat}
    (hi : i < G.size j) : G.StepsFit lo (Function.update x j (G.node j i)) := by
  have h := hG.node_fits hm (loc := Function.update (fun _ => 0) j i) (fun k => by
    by_cases hk : k = j
    · subst hk; simpa using hi
    · have := hG.big k; simp [hk]; omega) lo hlo
  cases G with
  | rectilinear => exact trivial
  | regular dims starts steps =>
    intro k
    by_cases hk : k = j
    · subst hk; simpa [Axes.node] using h k
    · simpa [hk] using hx k

/-- Along a line parallel to an axis a multicubic interpolant is a one-dimensional one. -/
theorem multicubic_line (e : Evaluator) (he : e.Fits N) (fma : Bool) (G : Axes K N) (vals : List K)
    (lin : Bool) (hG : G.Valid 4 vals) (x : Fin N → K) (j : Fin N) :
    ∃ f : Nat → K, ∀ z, G.RepresentableCubic (Function.update x j z) → ∀ c,
      InCell (G.size j) (G.node j) z c → multicubicAt e fma G vals lin (Function.update x j z) =
        .ok (cubicPiece (G.size j) (G.node j) f lin c z) := by
  obtain ⟨c, hc⟩ := hG.cells (by omega) x
  obtain ⟨f, hf⟩ := axisByAxis_axis (n := G.size) j
    (fun k f => cubicPiece (G.size k) (G.node k) f lin (c k) (x k))
    (fun k => cubicPiece_linear (hG.big k) lin (hc k).1) (valAt 0 G.size vals)
  refine ⟨f, fun z hz d hd => ?_⟩
  rw [multicubicAt_eq e he fma G vals lin hG _ (samples_valAt 0 _ _ hG.len) _ hz
    (Function.update c j d), ← hf (fun f => cubicPiece (G.size j) (G.node j) f lin d z)
    (cubicPiece_linear (hG.big j) lin hd.1)]
  · congr 2
    funext k
    by_cases hk : k = j
    · subst hk; simp
    · simp [hk]
  · intro k
    by_cases hk : k = j
    · subst hk; simpa using hd
    · simpa [hk] using hc k

theorem cubic_line_monotone (e : Evaluator) (he : e.Fits N) (fma : Bool) (G : Axes K N)
    (vals : List K) (lin : Bool) (hG : G.Valid 4 vals) (x : Fin N → K)
    (hx : G.RepresentableCubic x) (j : Fin N) (F : K → K)
    (hF : ∀ z, G.RepresentableCubic (Function.update x j z) →
      multicubicAt e fma G vals lin (Function.update x j z) = .ok (F z))
    (h : ∀ f : Nat → K, (∀ i < G.size j, f i = F (G.node j i)) →
      (∀ i < G.size j, 0 ≤ nodeSlope (G.size j) (G.node j) f i) ∧
      ∀ i, i + 1 < G.size j →
        nodeSlope (G.size j) (G.node j) f i * (G.node j (i + 1) - G.node j i) ≤
          3 * (f (i + 1) - f i) ∧
        nodeSlope (G.size j) (G.node j) f (i + 1) * (G.node j (i + 1) - G.node j i) ≤
          3 * (f (i + 1) - f i))
    (z z' : K) (hzz : z ≤ z') (hz : G.RepresentableCubic (Function.update x j z))
    (hz' : G.RepresentableCubic (Function.update x j z'))
    (hin : lin = true ∨ G.node j 0 ≤ z ∧ z' ≤ G.node j (G.size j - 1)) : F z ≤ F z' := by
  obtain ⟨f, hf⟩ := multicubic_line e he fma G vals lin hG x j
  have hn : 2 ≤ G.size j := le_trans (by omega) (hG.big j)
  have key : ∀ z, G.RepresentableCubic (Function.update x j z) → ∀ c,
      InCell (G.size j) (G.node j) z c → F z = cubicPiece (G.size j) (G.node j) f lin c z :=
    fun z hz c hc => Res.ok.inj ((hF z hz).symm.trans (hf z hz c hc))
  have hnode : ∀ i < G.size j, f i = F (G.node j i) := by
    intro i hi
    obtain ⟨c, hc⟩ := exists_inCell (p := G.node j) hn (G.node j i)
    rw [key _ (update_fits hG (by omega) (by decide) hx j hi) c hc,
      cubicPiece_node (hG.incr j) f lin hi hc]
  obtain ⟨h0, h3⟩ := h f hnode
  obtain ⟨c, hc⟩ := exists_inCell (p := G.node j) hn z
  obtain ⟨d, hd⟩ := exists_inCell (p := G.node j) hn z'
  rw [key z hz c hc, key z' hz' d hd]
  exact cubicPiece_mono (hG.incr j) hn lin h0 (fun i hi => (h3 i hi).1) (fun i hi => (h3 i hi).2)
    hzz hin hc hd

/-- C134: along a line parallel to axis `j`, multicubic interpolation does not decrease if its
results `F` at the nodes of the line do not, the slopes `s` between neighbouring nodes differ by a
factor of at most three, and at the ends of the axis the second slope is at most twice the first.
Inside the grid, and also outside if the extrapolation is linearized. -/
theorem C134_monotone (e : Evaluator) (he : e.Fits N) (fma : Bool) (G : Axes K N)
    (vals : List K) (lin : Bool) (hG : G.Valid 4 vals) (x : Fin N → K)
    (hx : G.RepresentableCubic x) (j : Fin N) (F : K → K)
    (hF : ∀ z, G.RepresentableCubic (Function.update x j z) →
      multicubicAt e fma G vals lin (Function.update x j z) = .ok (F z))
    (s : Nat → K)
    (hs : ∀ i, i + 1 < G.size j →
      F (G.node j (i + 1)) - F (G.node j i) = s i * (G.node j (i + 1) - G.node j i))
    (h0 : ∀ i, i + 1 < G.size j → 0 ≤ s i)
    (h3 : ∀ i, i + 2 < G.size j → s i ≤ 3 * s (i + 1) ∧ s (i + 1) ≤ 3 * s i)
    (hfirst : s 1 ≤ 2 * s 0) (hlast : s (G.size j - 3) ≤ 2 * s (G.size j - 2))
    (z z' : K) (hzz : z ≤ z') (hz : G.RepresentableCubic (Function.update x j z))
    (hz' : G.RepresentableCubic (Function.update x j z'))
    (hin : lin = true ∨ G.node j 0 ≤ z ∧ z' ≤ G.node j (G.size j - 1)) : F z ≤ F z' := by
  refine cubic_line_monotone e he fma G vals lin hG x hx j F hF (fun f hf => ?_) z z' hzz hz hz' hin
  have hn := hG.big j
  have hi := hG.incr j
  have hs' : ∀ i, i + 1 < G.size j → f (i + 1) - f i = s i * (G.node j (i + 1) - G.node j i) := by
    intro i h
    rw [hf i (by omega), hf (i + 1) h, hs i h]
  have hw : ∀ i, i + 1 < G.size j → 0 < G.node j (i + 1) - G.node j i := fun i h =>
    sub_pos.2 (hi i h)
  have hchord : ∀ i, i + 1 < G.size j → (f (i + 1) - f i) / (G.node j (i + 1) - G.node j i) = s i :=
    fun i h => by rw [hs' i h, mul_div_cancel_right₀ _ (hw i h).ne']
  have hmid : ∀ i, i + 2 < G.size j → 0 ≤ nodeSlope (G.size j) (G.node j) f (i + 1) ∧
      ∀ M, s i ≤ M → s (i + 1) ≤ M → nodeSlope (G.size j) (G.node j) f (i + 1) ≤ M := fun i h =>
    nodeSlope_between hi h (hs' i (by omega)) (hs' (i + 1) h) (h0 i (by omega)) (h0 (i + 1) h)
  have m0 : nodeSlope (G.size j) (G.node j) f 0 =
      2 * s 0 - nodeSlope (G.size j) (G.node j) f 1 := by
    rw [nodeSlope_first (by omega)]
    have := hchord 0 (by omega)
    rw [zero_add] at this
    rw [this]
  have ml : nodeSlope (G.size j) (G.node j) f (G.size j - 1) =
      2 * s (G.size j - 2) - nodeSlope (G.size j) (G.node j) f (G.size j - 2) := by
    have := nodeSlope_last (p := G.node j) (f := f) (n := G.size j) (i := G.size j - 2) (by omega)
      (by omega)
    rw [hchord _ (by omega)] at this
    rwa [show G.size j - 2 + 1 = G.size j - 1 by omega] at this
  have n1 := hmid 0 (by omega)
  have nl := hmid (G.size j - 3) (by omega)
  rw [show G.size j - 3 + 1 = G.size j - 2 by omega] at nl
  rw [zero_add] at n1
  have z0 := h0 0 (by omega)
  have zl := h0 (G.size j - 2) (by omega)
  -- every node slope, in terms of the chords on both sides
  have hall : ∀ i < G.size j, 0 ≤ nodeSlope (G.size j) (G.node j) f i := by
    intro i h
    rcases Nat.eq_zero_or_pos i with rfl | hp
    · have := n1.2 (2 * s 0) (by linarith) hfirst
      rw [m0]; linarith
    · rcases Nat.lt_or_ge (i + 1) (G.size j) with h' | h'
      · obtain ⟨i, rfl⟩ : ∃ k, i = k + 1 := ⟨i - 1, by omega⟩
        exact (hmid i (by omega)).1
      · rw [show i = G.size j - 1 by omega, ml]
        have := nl.2 (2 * s (G.size j - 2)) hlast (by linarith)
        linarith
  refine ⟨hall, fun i h => ?_⟩
  have hsi := h0 i h
  have up : nodeSlope (G.size j) (G.node j) f i ≤ 3 * s i ∧
      nodeSlope (G.size j) (G.node j) f (i + 1) ≤ 3 * s i := by
    constructor
    · rcases Nat.eq_zero_or_pos i with rfl | hp
      · rw [m0]; linarith [n1.1]
      · obtain ⟨i, rfl⟩ : ∃ k, i = k + 1 := ⟨i - 1, by omega⟩
        exact (hmid i (by omega)).2 _ (h3 i (by omega)).1 (by linarith)
    · rcases Nat.lt_or_ge (i + 2) (G.size j) with h' | h'
      · exact (hmid i h').2 _ (by linarith) (h3 i h').2
      · rw [show i + 1 = G.size j - 1 by omega, ml, show i = G.size j - 2 by omega]
        linarith [nl.1]
  rw [hs' i h, ← mul_assoc]
  exact ⟨mul_le_mul_of_nonneg_right up.1 (hw i h).le, mul_le_mul_of_nonneg_right up.2 (hw i h).le⟩

/-- C134 on a regular grid: neighbouring increments may differ by a factor of five, and at the ends
of the axis the second increment must be at most three times the first. -/
theorem C134_monotone_regular (e : Evaluator) (he : e.Fits N) (fma : Bool) (dims : Fin N → Nat)
    (starts steps : Fin N → K) (vals : List K) (lin : Bool)
    (hG : (Axes.regular dims starts steps).Valid 4 vals) (x : Fin N → K)
    (hx : (Axes.regular dims starts steps).RepresentableCubic x) (j : Fin N) (F : K → K)
    (hF : ∀ z, (Axes.regular dims starts steps).RepresentableCubic (Function.update x j z) →
      multicubicAt e fma (.regular dims starts steps) vals lin (Function.update x j z) = .ok (F z))
    (d : Nat → K)
    (hd : ∀ i, i + 1 < dims j →
      d i = F (starts j + steps j * (i + 1 : Nat)) - F (starts j + steps j * i))
    (h0 : ∀ i, i + 1 < dims j → 0 ≤ d i)
    (h5 : ∀ i, i + 2 < dims j → d i ≤ 5 * d (i + 1) ∧ d (i + 1) ≤ 5 * d i)
    (hfirst : d 1 ≤ 3 * d 0) (hlast : d (dims j - 3) ≤ 3 * d (dims j - 2))
    (z z' : K) (hzz : z ≤ z')
    (hz : (Axes.regular dims starts steps).RepresentableCubic (Function.update x j z))
    (hz' : (Axes.regular dims starts steps).RepresentableCubic (Function.update x j z'))
    (hin : lin = true ∨ starts j ≤ z ∧ z' ≤ starts j + steps j * (dims j - 1 : Nat)) :
    F z ≤ F z' := by
  refine cubic_line_monotone e he fma _ vals lin hG x hx j F hF (fun f hf => ?_) z z' hzz hz hz'
    (hin.imp id fun h => ⟨by simpa [Axes.node] using h.1, h.2⟩)
  have hn : 4 ≤ dims j := hG.big j
  have hi := hG.incr j
  have hstep : 0 < steps j := hG.step_pos (by omega) j
  have hs' : ∀ i, i + 1 < dims j → f (i + 1) - f i = d i := by
    intro i h
    rw [hf i (by change i < dims j; omega), hf (i + 1) h, hd i h]
    rfl
  show (∀ i < dims j, 0 ≤ nodeSlope (dims j) (fun i => starts j + steps j * i) f i) ∧
      ∀ i, i + 1 < dims j →
        nodeSlope (dims j) (fun i => starts j + steps j * i) f i *
          ((starts j + steps j * (i + 1 : Nat)) - (starts j + steps j * i)) ≤ 3 * (f (i + 1) - f i) ∧
        nodeSlope (dims j) (fun i => starts j + steps j * i) f (i + 1) *
          ((starts j + steps j * (i + 1 : Nat)) - (starts j + steps j * i)) ≤ 3 * (f (i + 1) - f i)
  obtain ⟨m, hm⟩ : ∃ m : Nat → K, ∀ i,
      m i = nodeSlope (dims j) (fun i => starts j + steps j * i) f i * steps j := ⟨_, fun _ => rfl⟩
  have hdiff : ∀ i : Nat, (starts j + steps j * (i + 1 : Nat)) - (starts j + steps j * i) =
      steps j := fun i => by push_cast; ring
  have hmid : ∀ i, i + 2 < dims j → m (i + 1) = (d i + d (i + 1)) / 2 := by
    intro i h
    have e1 : f (i + 2) - f (i + 1) = d (i + 1) := hs' (i + 1) h
    have d2 : (starts j + steps j * (i + 2 : Nat)) - (starts j + steps j * (i + 1 : Nat)) =
        steps j := hdiff (i + 1)
    have d3 : (starts j + steps j * (i + 2 : Nat)) - (starts j + steps j * i) = 2 * steps j := by
      push_cast; ring
    rw [hm, nodeSlope_inner h, e1, hs' i (by omega), hdiff, d2, d3]
    field_simp
    ring
  have m0 : m 0 = 2 * d 0 - m 1 := by
    have e1 : f 1 - f 0 = d 0 := hs' 0 (by omega)
    have d1 : (starts j + steps j * (1 : Nat)) - (starts j + steps j * (0 : Nat)) = steps j :=
      hdiff 0
    rw [hm, nodeSlope_first (by omega), hm, e1, d1]
    field_simp
  have ml : m (dims j - 1) = 2 * d (dims j - 2) - m (dims j - 2) := by
    have := nodeSlope_last (p := fun i => starts j + steps j * i) (f := f) (n := dims j)
      (i := dims j - 2) (by omega) (by omega)
    rw [hs' _ (by omega), hdiff] at this
    rw [show dims j - 2 + 1 = dims j - 1 by omega] at this
    rw [hm, hm, this]
    field_simp
  have n1 := hmid 0 (by omega)
  have nl := hmid (dims j - 3) (by omega)
  rw [show dims j - 3 + 1 = dims j - 2 by omega] at nl
  rw [zero_add] at n1
  have z0 := h0 0 (by omega)
  have zl := h0 (dims j - 2) (by omega)
  have z1 := h0 1 (by omega)
  have zk := h0 (dims j - 3) (by omega)
  have hall : ∀ i < dims j, 0 ≤ m i := by
    intro i h
    rcases Nat.eq_zero_or_pos i with rfl | hp
    · rw [m0, n1]; linarith
    · rcases Nat.lt_or_ge (i + 1) (dims j) with h' | h'
      · obtain ⟨i, rfl⟩ : ∃ k, i = k + 1 := ⟨i - 1, by omega⟩
        rw [hmid i (by omega)]
        linarith [h0 i (by omega), h0 (i + 1) (by omega)]
      · rw [show i = dims j - 1 by omega, ml, nl]
        linarith
  refine ⟨fun i h => ?_, fun i h => ?_⟩
  · have := hall i h
    rw [hm] at this
    exact nonneg_of_mul_nonneg_left this hstep
  · rw [hdiff, ← hm, ← hm, hs' i h]
    have hsi := h0 i h
    constructor
    · rcases Nat.eq_zero_or_pos i with rfl | hp
      · rw [m0, n1]; linarith
      · obtain ⟨i, rfl⟩ : ∃ k, i = k + 1 := ⟨i - 1, by omega⟩
        rw [hmid i (by omega)]
        linarith [(h5 i (by omega)).1]
    · rcases Nat.lt_or_ge (i + 2) (dims j) with h' | h'
      · rw [hmid i h']
        linarith [(h5 i h').2]
      · rw [show i + 1 = dims j - 1 by omega, ml, show i = dims j - 2 by omega, nl]
        linarith

end

section Examples

attribute [local instance] ratOps

/-- A table of five rows and four columns whose increments along the first axis differ by factors up
to five, read along the line with second coordinate `3/2`. -/
example (lin : Bool) (z z' : ℚ) (hzz : z ≤ z')
    (h : lin = true ∧ -(2 ^ 62) ≤ z ∧ z' ≤ 2 ^ 62 ∨ 0 ≤ z ∧ z' ≤ 4) :
    let G : Axes ℚ 2 := .regular ![5, 4] ![0, 0] ![1, 1]
    let vals : List ℚ := [0, 1, 2, 3, 1, 2, 3, 4, 4, 5, 6, 7, 19, 20, 21, 22, 24, 25, 26, 27]
    ∃ y y', multicubicAt .flat false G vals lin ![z, 3 / 2] = .ok y ∧
      multicubicAt .flat false G vals lin ![z', 3 / 2] = .ok y' ∧ y ≤ y' := by
  intro G vals
  have hG : G.Valid 4 vals := valid_of_check (by decide +kernel)
  have hfit : ∀ w : ℚ, -(2 ^ 62) ≤ w → w ≤ 2 ^ 62 →
      G.RepresentableCubic (Function.update ![0, 3 / 2] 0 w) := by
    intro w h1 h2 k
    fin_cases k
    · simp
      constructor
      · rw [Int.le_floor]; push_cast; linarith
      · have : ⌊w⌋ ≤ (2 : Int) ^ 62 := by
          have := Int.floor_mono h2
          rwa [show ((2 : ℚ) ^ 62) = ((2 ^ 62 : Int) : ℚ) by norm_num, Int.floor_intCast] at this
        norm_num at this
        omega
    · show _ ≤ ⌊((3 / 2 : ℚ) - 0) / 1⌋ ∧ ⌊((3 / 2 : ℚ) - 0) / 1⌋ ≤ _
      constructor <;> decide +kernel
  have e : ∀ w : ℚ, Function.update (![0, 3 / 2] : Fin 2 → ℚ) 0 w = ![w, 3 / 2] := by
    intro w; funext k; fin_cases k <;> rfl
  let F : ℚ → ℚ := fun w => match multicubicAt .flat false G vals lin ![w, 3 / 2] with
    | .ok y => y
    | _ => 0
  have hF : ∀ w, G.RepresentableCubic (Function.update ![0, 3 / 2] 0 w) →
      multicubicAt .flat false G vals lin (Function.update ![0, 3 / 2] 0 w) = .ok (F w) := by
    intro w hw
    obtain ⟨f, hf⟩ := multicubic_line .flat Nat.two_pos false G vals lin hG ![0, 3 / 2] 0
    obtain ⟨c, hc⟩ := exists_inCell (n := 5) (p := G.node 0) (by decide) w
    have := hf w hw c hc
    rw [e] at this ⊢
    simp only [F, this]
  have hb : -(2 ^ 62) ≤ z ∧ z' ≤ 2 ^ 62 := by
    rcases h with ⟨_, h⟩ | h
    · exact h
    · constructor <;> linarith
  have hz := hfit z hb.1 (hzz.trans hb.2)
  have hz' := hfit z' (hb.1.trans hzz) hb.2
  refine ⟨F z, F z', by rw [← e]; exact hF z hz, by rw [← e]; exact hF z' hz', ?_⟩
  have hd : ∀ i : Nat, i < 5 → F (i : ℚ) = ![3 / 2, 5 / 2, 11 / 2, 41 / 2, 51 / 2] (Fin.ofNat 5 i) := by
    intro i hi
    clear hF h
    interval_cases i <;> cases lin <;> decide +kernel
  have hd' : ∀ i : Nat, i + 1 < 5 → (![1, 3, 15, 5] : Fin 4 → ℚ) (Fin.ofNat 4 i) =
      F (0 + 1 * (i + 1 : Nat)) - F (0 + 1 * i) := by
    intro i hi
    rw [zero_add, zero_add, one_mul, one_mul, hd i (by omega), hd (i + 1) hi]
    have hi' : i < 4 := by omega
    interval_cases i <;> decide +kernel
  refine C134_monotone_regular .flat Nat.two_pos false _ _ _ vals lin hG
    ![0, 3 / 2] (by rw [← e]; exact hfit 0 (by norm_num) (by norm_num)) 0 F hF
    (fun i => (![1, 3, 15, 5] : Fin 4 → ℚ) (Fin.ofNat 4 i)) hd' ?_ ?_ (by decide +kernel)
    (by decide +kernel) z z' hzz hz hz' ?_
  · intro i hi
    have hi' : i < 4 := Nat.lt_of_succ_lt_succ hi
    interval_cases i <;> decide +kernel
  · intro i hi
    have hi' : i < 3 := Nat.lt_of_succ_lt_succ (Nat.lt_of_succ_lt_succ hi)
    interval_cases i <;> decide +kernel
  · rcases h with ⟨h, _⟩ | h
    · exact .inl h
    · exact .inr ⟨h.1, h.2.trans (by decide +kernel)⟩

/-- An uneven axis with chords `1, 2, 6, 3`, inside and outside. -/
example (z z' : ℚ) (hzz : z ≤ z') :
    let G : Axes ℚ 1 := .rectilinear fun _ => [0, 1, 3, 4, 6]
    let vals : List ℚ := [0, 1, 5, 11, 17]
    ∃ y y', multicubicAt (.recursive 3) true G vals true ![z] = .ok y ∧
      multicubicAt (.recursive 3) true G vals true ![z'] = .ok y' ∧ y ≤ y' := by
  intro G vals
  have hG : G.Valid 4 vals := valid_of_check (by decide +kernel)
  have he : (Evaluator.recursive 3).Fits 1 := show 0 < 1 ∧ 1 ≤ 3 by decide
  have e : ∀ w : ℚ, Function.update (![0] : Fin 1 → ℚ) 0 w = ![w] := by
    intro w; funext k; fin_cases k; rfl
  let F : ℚ → ℚ := fun w => match multicubicAt (.recursive 3) true G vals true ![w] with
    | .ok y => y
    | _ => 0
  have hF : ∀ w, G.RepresentableCubic (Function.update ![0] 0 w) →
      multicubicAt (.recursive 3) true G vals true (Function.update ![0] 0 w) = .ok (F w) := by
    intro w hw
    obtain ⟨f, hf⟩ := multicubic_line (.recursive 3) he true G vals true hG ![0] 0
    obtain ⟨c, hc⟩ := exists_inCell (n := 5) (p := G.node 0) (by decide) w
    have := hf w hw c hc
    rw [e] at this ⊢
    simp only [F, this]
  refine ⟨F z, F z', by rw [← e]; exact hF z trivial, by rw [← e]; exact hF z' trivial, ?_⟩
  refine C134_monotone (.recursive 3) he true G vals true hG ![0] trivial 0 F hF
    (fun i => (![1, 2, 6, 3] : Fin 4 → ℚ) (Fin.ofNat 4 i)) ?_ ?_ ?_ (by decide +kernel)
    (by decide +kernel) z z' hzz trivial trivial (.inl rfl)
  · intro i hi
    have hi' : i < 4 := Nat.lt_of_succ_lt_succ hi
    clear hF hzz
    interval_cases i <;> decide +kernel
  · intro i hi
    have hi' : i < 4 := Nat.lt_of_succ_lt_succ hi
    interval_cases i <;> decide +kernel
  · intro i hi
    have hi' : i < 3 := Nat.lt_of_succ_lt_succ (Nat.lt_of_succ_lt_succ hi)
    interval_cases i <;> decide +kernel

/-- C134: the conditions cannot be dropped. Monotone tables with a step, with increments that differ
by a factor of six, and with a second increment four times the first, give results that
decrease. -/
theorem C134_counterexample :
    let at_ : List ℚ → ℚ → Res ℚ := fun vals z =>
      multicubicAt .flat false (.regular ![4] ![0] ![1]) vals true ![z]
    (at_ [0, 0, 1, 1] 0 = .ok 0 ∧ at_ [0, 0, 1, 1] (1 / 2) = .ok (-1 / 8)) ∧
    (at_ [0, 6, 7, 13] (7 / 5) = .ok (163 / 25) ∧ at_ [0, 6, 7, 13] (8 / 5) = .ok (162 / 25)) ∧
    (at_ [0, 1, 5, 9] (-1) = .ok (1 / 2) ∧ at_ [0, 1, 5, 9] 0 = .ok 0) := by
  intro at_
  decide +kernel

end Examples

end Interpn
