import Verif.Props.IeeeLinearOut
import Verif.Props.IeeeBounds
import Verif.Props.Linearity
import Verif.Props.CubicExtrapolation

/-! C113: what a passed bounds check guarantees about the interpolated values. -/

set_option autoImplicit false
set_option linter.unusedSectionVars false
set_option exponentiation.threshold 1100

namespace Interpn
open FloatOps Ieee

section Exact
attribute [local instance] exactOps
variable {K : Type} [Field K] [LinearOrder K] [IsStrictOrderedRing K] [FloorRing K] {N : Nat}

/-- The bounds check of the crate for the kind of grid, in exact arithmetic. -/
def Axes.checkBounds (G : Axes K N) (obs : Fin N → List K) (atol : K) (out : List Bool) :
    Res Unit × List Bool :=
  match G with
  | .regular dims starts steps =>
    checkBoundsRegular (List.ofFn dims) (List.ofFn starts) (List.ofFn steps) (List.ofFn obs) atol out
  | .rectilinear grids => checkBoundsRectilinear (List.ofFn grids) (List.ofFn obs) atol out

theorem ofFn_eq_replicate {α : Type} {f : Fin N → α} {a : α} (h : List.ofFn f = List.replicate N a)
    (k : Fin N) : f k = a := by
  have : f k ∈ List.ofFn f := (List.mem_ofFn' f _).2 ⟨k, rfl⟩
  rw [h] at this
  exact List.eq_of_mem_replicate this

/-- An observation in a batch that passed lies strictly inside the range widened by `atol`. -/
theorem Axes.Valid.of_check {G : Axes K N} {m : Nat} {vals : List K} (hG : G.Valid m vals)
    (hm : 2 ≤ m) {obs : Fin N → List K} {atol : K} {out : List Bool}
    (h : G.checkBounds obs atol out = (.ok (), List.replicate N false)) {x : Fin N → K}
    (hx : ∀ k, x k ∈ obs k) (k : Fin N) :
    G.node k 0 - atol < x k ∧ x k < G.node k (G.size k - 1) + atol := by
  have hb := hG.big k
  suffices ¬ BeyondTolerance (G.node k 0) (G.node k (G.size k - 1)) atol (x k) by
    unfold BeyondTolerance at this
    push Not at this
    exact this
  intro hbad
  cases G with
  | regular dims starts steps =>
    simp only [Axes.checkBounds] at h
    simp only [Axes.size] at hb
    have hout : out.length = N := by
      by_contra hne
      rw [C38_mismatch _ _ _ _ _ _ (.inr (by simpa using hne))] at h
      cases congrArg Prod.fst h
    have hd : ∀ k, 1 ≤ dims k := fun k => by
      have := hG.big k; simp only [Axes.size] at this; omega
    obtain ⟨flags, h1, h2⟩ := C38_exact dims starts steps obs atol out hout hd
    rw [h1] at h
    have hk := ofFn_eq_replicate (congrArg Prod.snd h) k
    have hs := hG.step_pos hm k
    have : 0 ≤ steps k * ((dims k - 1 : Nat) : K) := by positivity
    rw [Bool.eq_false_iff, Ne, h2 k, min_eq_left (by linarith), max_eq_right (by linarith)] at hk
    refine hk ⟨x k, hx k, ?_⟩
    simpa only [Axes.node, Nat.cast_zero, mul_zero, add_zero, Axes.size] using hbad
  | rectilinear grids =>
    simp only [Axes.checkBounds] at h
    simp only [Axes.size] at hb
    have hout : out.length = N := by
      by_contra hne
      rw [C39_mismatch _ _ _ _ (.inr (.inl (by simpa using hne)))] at h
      cases congrArg Prod.fst h
    have hg : ∀ k, grids k ≠ [] := fun k h0 => by
      have := hG.big k; simp only [Axes.size, h0, List.length_nil] at this; omega
    obtain ⟨flags, h1, h2⟩ := C39_exact grids obs atol out hout hg
    rw [h1] at h
    have hk := ofFn_eq_replicate (congrArg Prod.snd h) k
    rw [Bool.eq_false_iff, Ne, h2 k] at hk
    refine hk ⟨x k, hx k, ?_⟩
    simp only [Axes.node, Axes.size] at hbad
    rw [List.getD_eq_getElem _ _ (by omega), List.getD_eq_getElem _ _ (by omega)] at hbad
    rwa [List.head_eq_getElem, List.getLast_eq_getElem]

/-- An observation at most one end cell outside the range is representable. -/
theorem Axes.Valid.nearRange_fits {G : Axes K N} {m : Nat} {vals : List K} (hG : G.Valid m vals)
    (hm : 2 ≤ m) {x : Fin N → K} {lam : K} (hlam : lam ≤ 1)
    (hx : ∀ k, NearRange (G.size k) (G.node k) lam (x k)) (lo : Int)
    (hlo : lo ≤ -1) : G.StepsFit lo x := by
  cases G with
  | rectilinear => exact trivial
  | regular dims starts steps =>
    intro k
    have hs := hG.step_pos hm k
    obtain ⟨h0, h1⟩ := hx k
    have hb := hG.big k
    have hsize : dims k ≤ vals.length := by
      have hl := hG.len
      simp only [Axes.size] at hl
      rw [hl]
      exact Finset.single_le_prod' (f := dims) (fun i _ => by
        have := hG.big i; simp only [Axes.size] at this; omega) (Finset.mem_univ k)
    have hsl := hG.slice
    unfold IsSlice at hsl
    simp only [Axes.node, Axes.size] at h0 h1 hb
    have e1 : ((dims k - 1 : Nat) : K) = (dims k : K) - 1 := by
      rw [Nat.cast_sub (by omega)]; simp
    have e2 : ((dims k - 2 : Nat) : K) = (dims k : K) - 2 := by
      rw [Nat.cast_sub (by omega)]; simp
    rw [e1, e2] at h1
    push_cast at h0
    have hl1 : lam * steps k ≤ steps k := by nlinarith
    have hfl : (dims k : Int) ≤ 2 ^ 63 - 1 := by
      have : (dims k : Int) < 2 ^ 63 := by exact_mod_cast hsize.trans_lt hsl
      omega
    constructor
    · refine hlo.trans (Int.le_floor.2 ?_)
      rw [le_div_iff₀ hs]
      push_cast
      linarith
    · refine le_trans ?_ hfl
      have : (x k - starts k) / steps k ≤ ((dims k : Int) : K) := by
        rw [div_le_iff₀ hs]
        push_cast
        linarith
      exact_mod_cast (Int.floor_mono this).trans_eq (Int.floor_intCast _)

private theorem const_valid {G : Axes K N} {m : Nat} {vals : List K} (hG : G.Valid m vals) (a : K) :
    G.Valid m (List.replicate vals.length a) :=
  ⟨by have := hG.slice; unfold IsSlice at *; simpa using this, by simpa using hG.len, hG.big,
    hG.increasing⟩

private theorem dist_mid {vals : List K} {lo hi : K} (hv : ∀ v ∈ vals, lo ≤ v ∧ v ≤ hi) (i : Nat)
    (h : i < vals.length) (h' : i < (List.replicate vals.length ((lo + hi) / 2)).length) :
    |vals[i] - (List.replicate vals.length ((lo + hi) / 2))[i]| ≤ (hi - lo) / 2 := by
  have := hv _ (List.getElem_mem h)
  rw [List.getElem_replicate, abs_le]
  constructor <;> linarith

/-- Multilinear results near the range, in terms of the range of the values. -/
theorem multilinear_near (e : Evaluator) (he : e.Fits N) (fma : Bool) (G : Axes K N)
    (vals : List K) (hG : G.Valid 2 vals) (lo hi : K) (hv : ∀ v ∈ vals, lo ≤ v ∧ v ≤ hi)
    (x : Fin N → K) (hx : G.Representable x) (lam : K) (hlam : 0 ≤ lam)
    (hin : ∀ k, NearRange (G.size k) (G.node k) lam (x k)) :
    ∃ y, multilinearAt e fma G vals x = .ok y ∧
      |y - (lo + hi) / 2| ≤ (1 + 2 * lam) ^ N * ((hi - lo) / 2) := by
  obtain ⟨y, y', h1, h2, h3⟩ := C100_stability e he fma G vals
    (List.replicate vals.length ((lo + hi) / 2)) hG (const_valid hG _) ((hi - lo) / 2)
    (dist_mid hv) x hx lam hlam hin
  rw [C24_multilinear_constant e he fma G _ (const_valid hG _) ((lo + hi) / 2)
    (fun y hy => List.eq_of_mem_replicate hy) x hx] at h2
  cases h2
  exact ⟨y, h1, h3⟩

/-- C113, exact arithmetic, multilinear: if the bounds check flags no axis of a batch, every
observation of the batch can be evaluated, and the result leaves the range `lo..hi` of the values by
no more than widening it by the factor `(1 + 2 lam)^N` about its middle allows, where the tolerance
is at most `lam` times the first and the last cell of each axis. In particular with a tolerance of
zero the result lies in `lo..hi`. -/
theorem C113_linear (e : Evaluator) (he : e.Fits N) (fma : Bool) (G : Axes K N)
    (vals : List K) (hG : G.Valid 2 vals) (lo hi : K) (hv : ∀ v ∈ vals, lo ≤ v ∧ v ≤ hi)
    (obs : Fin N → List K) (atol : K) (out : List Bool)
    (hcheck : G.checkBounds obs atol out = (.ok (), List.replicate N false))
    (lam : K) (hlam : 0 ≤ lam) (hlam1 : lam ≤ 1)
    (hatol : ∀ k, atol ≤ lam * (G.node k 1 - G.node k 0) ∧
      atol ≤ lam * (G.node k (G.size k - 1) - G.node k (G.size k - 2)))
    (x : Fin N → K) (hx : ∀ k, x k ∈ obs k) :
    ∃ y, multilinearAt e fma G vals x = .ok y ∧
      |y - (lo + hi) / 2| ≤ (1 + 2 * lam) ^ N * ((hi - lo) / 2) := by
  have hin : ∀ k, NearRange (G.size k) (G.node k) lam (x k) := fun k => by
    have := hG.of_check le_rfl hcheck hx k
    exact ⟨by linarith [(hatol k).1], by linarith [(hatol k).2]⟩
  exact multilinear_near e he fma G vals hG lo hi hv x
    (hG.nearRange_fits le_rfl hlam1 hin _ (by norm_num)) lam hlam hin

/-- C113, exact arithmetic, multicubic: the same with the factor `Λ^N`,
`Λ = 1 + ρ²/(2 (1 + ρ)) + 8 ρ lam (1 + lam)`, where `ρ` bounds the ratios of the widths of adjacent
cells. (`Λ = 5/4` on uniform axes with a tolerance of zero: cubics overshoot inside the range.) -/
theorem C113_cubic (e : Evaluator) (he : e.Fits N) (fma : Bool) (G : Axes K N)
    (vals : List K) (lin : Bool) (hG : G.Valid 4 vals) (lo hi : K)
    (hv : ∀ v ∈ vals, lo ≤ v ∧ v ≤ hi) (ρ : K) (hρ1 : 1 ≤ ρ)
    (hρ : ∀ k, MeshRatio (G.size k) (G.node k) ρ)
    (obs : Fin N → List K) (atol : K) (out : List Bool)
    (hcheck : G.checkBounds obs atol out = (.ok (), List.replicate N false))
    (lam : K) (hlam : 0 ≤ lam) (hlam1 : lam ≤ 1)
    (hatol : ∀ k, atol ≤ lam * (G.node k 1 - G.node k 0) ∧
      atol ≤ lam * (G.node k (G.size k - 1) - G.node k (G.size k - 2)))
    (x : Fin N → K) (hx : ∀ k, x k ∈ obs k) :
    ∃ y, multicubicAt e fma G vals lin x = .ok y ∧
      |y - (lo + hi) / 2| ≤
        (1 + ρ ^ 2 / (2 * (1 + ρ)) + 8 * ρ * (lam * (1 + lam))) ^ N * ((hi - lo) / 2) := by
  have hin : ∀ k, NearRange (G.size k) (G.node k) lam (x k) := fun k => by
    have := hG.of_check (by norm_num) hcheck hx k
    exact ⟨by linarith [(hatol k).1], by linarith [(hatol k).2]⟩
  have hfit : G.RepresentableCubic x := hG.nearRange_fits (by norm_num) hlam1 hin _ (by norm_num)
  obtain ⟨y, y', h1, h2, h3⟩ := C93_stability e he fma G vals
    (List.replicate vals.length ((lo + hi) / 2)) lin hG (const_valid hG _) ((hi - lo) / 2)
    (dist_mid hv) ρ hρ1 hρ x hfit lam hlam hin
  rw [C24_multicubic_constant e he fma G _ lin (const_valid hG _) ((lo + hi) / 2)
    (fun y hy => List.eq_of_mem_replicate hy) x hfit] at h2
  cases h2
  exact ⟨y, h1, h3⟩

end Exact

section Float
variable {f : Format} {N : Nat}

/-- Finite observations of a batch that passed the rectilinear check lie inside the range widened by
the tolerance, rounding notwithstanding. -/
theorem inside_of_checkBoundsRectilinear {grids obs : Fin N → List (Ieee f)} {atol : Ieee f}
    {out : List Bool} (hb : ∀ k, 1 ≤ (grids k).length) (hgrid : ∀ k, ∀ a ∈ grids k, Finite a)
    (hobs : ∀ k, ∀ x ∈ obs k, Finite x) (hatol : Finite atol) (h0 : 0 ≤ val atol)
    (h : checkBoundsRectilinear (List.ofFn grids) (List.ofFn obs) atol out =
      (.ok (), List.replicate N false)) {x : Fin N → Ieee f} (hx : ∀ k, x k ∈ obs k) (k : Fin N) :
    ((grids k).map val).getD 0 0 - val atol < val (x k) ∧
      val (x k) < ((grids k).map val).getD ((grids k).length - 1) 0 + val atol := by
  have hout : out.length = N := by
    by_contra hne
    rw [C39_mismatch _ _ _ _ (.inr (.inl (by simpa using hne)))] at h
    cases congrArg Prod.fst h
  have hg : ∀ k, grids k ≠ [] := fun k h0 => by
    have := hb k; simp only [h0, List.length_nil] at this; omega
  obtain ⟨flags, h1, h2⟩ := C85_rectilinear grids obs atol out hout hg hgrid hobs hatol h0
  rw [h1] at h
  have hk := ofFn_eq_replicate (congrArg Prod.snd h) k
  by_contra hbad
  have : flags k = true := by
    refine (h2 k).1 ⟨x k, hx k, ?_⟩
    have hbk := hb k
    rw [List.getD_eq_getElem _ _ (by rw [List.length_map]; exact hbk),
      List.getD_eq_getElem _ _ (by simp; omega)] at hbad
    simp only [List.getElem_map] at hbad
    rw [List.head_eq_getElem, List.getLast_eq_getElem]
    unfold BeyondTolerance
    by_contra hn
    push Not at hn
    exact hbad hn
  rw [hk] at this
  cases this

/-- The same for regular grids, up to the error of the computed end of the axis. -/
theorem inside_of_checkBoundsRegular {dims : Fin N → Nat} {starts steps : Fin N → Ieee f}
    {obs : Fin N → List (Ieee f)} {atol : Ieee f} {out : List Bool} (hd : ∀ k, 1 ≤ dims k)
    (hdims : ∀ k, dims k ≤ 2 ^ f.p + 1)
    (hfin : ∀ k, Finite (starts k) ∧ Finite (steps k)) (hpos : ∀ k, 0 < val (steps k))
    (hbig : ∀ k, |val (starts k)| + (1 + f.unitRoundoff) *
      (val (steps k) * ((dims k - 1 : Nat) : ℚ)) + f.underflow ≤ f.omega)
    (hobs : ∀ k, ∀ x ∈ obs k, Finite x) (hatol : Finite atol) (h0 : 0 ≤ val atol)
    (h : checkBoundsRegular (List.ofFn dims) (List.ofFn starts) (List.ofFn steps) (List.ofFn obs)
      atol out = (.ok (), List.replicate N false)) {x : Fin N → Ieee f} (hx : ∀ k, x k ∈ obs k)
    (k : Fin N) :
    val (starts k) - val atol < val (x k) ∧
      val (x k) < val (starts k) + val (steps k) * ((dims k - 1 : Nat) : ℚ) +
        endError f (dims k) (val (starts k)) (val (steps k)) + val atol := by
  have hout : out.length = N := by
    by_contra hne
    rw [C38_mismatch _ _ _ _ _ _ (.inr (by simpa using hne))] at h
    cases congrArg Prod.fst h
  obtain ⟨flags, h1, h2⟩ := C85_regular dims starts steps obs atol out hout hd hdims hfin hpos hbig
    hobs hatol h0
  rw [h1] at h
  have hk := ofFn_eq_replicate (congrArg Prod.snd h) k
  by_contra hbad
  have : flags k = true := by
    refine (h2 k).1 ⟨x k, hx k, ?_⟩
    unfold BeyondTolerance
    by_contra hn
    push Not at hn
    exact hbad hn
  rw [hk] at this
  cases this

end Float

/-- C113, `f64`, rectilinear grids, multilinear: if the bounds check flags no axis of a batch of
finite observations, every result is finite and leaves the range `lo..hi` of the values by no more
than the tolerance allows, up to rounding: `lam` bounds the tolerance in units of the end cells, `M`
the values. -/
theorem C113_rectilinear_f64 {N : Nat} (e : Evaluator) (he : e.Fits N) (hN : N ≤ 1000) (fma : Bool)
    (grids : Fin N → List F64) (vals : List F64)
    (hG : (Axes.rectilinear fun k => (grids k).map val).Valid 2 (vals.map val))
    (hgrid : ∀ k, ∀ a ∈ grids k, Finite a ∧ |val a| ≤ 2 ^ 1021)
    (lo hi M lam : ℚ) (hv : ∀ v ∈ vals, Finite v ∧ lo ≤ val v ∧ val v ≤ hi)
    (hlo : |lo| ≤ M) (hhi : |hi| ≤ M) (hlam : 0 ≤ lam)
    (hlam2 : (1 + 2 * lam) ^ N ≤ 2 ^ 1020) (hM : (1 + 2 * lam) ^ N * M ≤ 2 ^ 1020)
    (obs : Fin N → List F64) (hobs : ∀ k, ∀ x ∈ obs k, Finite x)
    (atol : F64) (hat : Finite atol) (hat0 : 0 ≤ val atol) (hat1 : val atol ≤ 2 ^ 1021)
    (hatol : ∀ k, val atol ≤ lam * (((grids k).map val).getD 1 0 - ((grids k).map val).getD 0 0) ∧
      val atol ≤ lam * (((grids k).map val).getD ((grids k).length - 1) 0 -
        ((grids k).map val).getD ((grids k).length - 2) 0))
    (out : List Bool) (hcheck : checkBoundsRectilinear (List.ofFn grids) (List.ofFn obs) atol out =
      (.ok (), List.replicate N false)) (x : Fin N → F64) (hx : ∀ k, x k ∈ obs k) :
    ∃ r, multilinearRectilinearAt e fma grids vals x = .ok r ∧ Finite r ∧
      |val r - (lo + hi) / 2| ≤ (1 + 2 * lam) ^ N *
        ((hi - lo) / 2 + (26 * N * (1 / 2 ^ 53) * M + 3 * N * (1 / 2 ^ 1075))) := by
  have hb : ∀ k, 2 ≤ (grids k).length := fun k => by simpa [Axes.size] using hG.big k
  have hins := inside_of_checkBoundsRectilinear (fun k => (by norm_num : 1 ≤ 2).trans (hb k))
    (fun k a ha => (hgrid k a ha).1) hobs hat hat0 hcheck hx
  have hin : ∀ k, NearRange (grids k).length (fun i => ((grids k).map val).getD i 0) lam
      (val (x k)) := fun k =>
    ⟨by linarith [(hins k).1, (hatol k).1], by linarith [(hins k).2, (hatol k).2]⟩
  have hnode : ∀ k i, i < (grids k).length → |((grids k).map val).getD i 0| ≤ 2 ^ 1021 := by
    intro k i hi
    rw [List.getD_eq_getElem _ _ (by simpa using hi), List.getElem_map]
    exact (hgrid k _ (List.getElem_mem hi)).2
  have hxb : ∀ k, |val (x k)| ≤ 2 ^ 1022 := by
    intro k
    have h1 := abs_le.1 (hnode k 0 (by have := hb k; omega))
    have h2 := abs_le.1 (hnode k ((grids k).length - 1) (by have := hb k; omega))
    have h3 := hins k
    have e2 : (2 : ℚ) ^ 1022 = 2 ^ 1021 + 2 ^ 1021 := by rw [pow_succ]; ring
    rw [abs_le, e2]
    constructor <;> linarith
  have hMv : ∀ v ∈ vals, Finite v ∧ |val v| ≤ M := fun v hvm => by
    obtain ⟨h1, h2, h3⟩ := hv v hvm
    have := abs_le.1 hlo
    have := abs_le.1 hhi
    exact ⟨h1, abs_le.2 ⟨by linarith, by linarith⟩⟩
  obtain ⟨r, y, h1, h2, h3, h4⟩ := C100_rectilinear_f64 e he hN fma grids vals hG
    (fun k a ha => ⟨(hgrid k a ha).1, (hgrid k a ha).2.trans
      (pow_le_pow_right₀ (by norm_num) (by norm_num))⟩) M lam hlam hlam2 hM hMv x
    (fun k => ⟨hobs k _ (hx k), hxb k⟩) hin
  obtain ⟨y', h5, h6⟩ := multilinear_near e he fma (.rectilinear fun k => (grids k).map val)
    (vals.map val) hG lo hi (by
      intro v hvm
      obtain ⟨w, hw, rfl⟩ := List.mem_map.1 hvm
      exact (hv w hw).2) (fun k => val (x k)) trivial lam hlam (by
      intro k
      show NearRange ((grids k).map val).length _ lam _
      rw [List.length_map]
      exact hin k)
  obtain rfl : y = y' := by rw [h3] at h5; injection h5
  refine ⟨r, h1, h2, ?_⟩
  rw [mul_add]
  have := abs_add_le (val r - y) (y - (lo + hi) / 2)
  rw [sub_add_sub_cancel] at this
  linarith

/-- C113, `f64`, regular grids, multilinear: the same. The tolerance and the error of the computed
end of the axis (`endError`, C85) are together at most `lam` steps; nodes widened by `lam` steps are
of size up to `κ` steps. -/
theorem C113_regular_f64 {N : Nat} (e : Evaluator) (he : e.Fits N) (fma : Bool) (κ lam : ℚ)
    (hlam : 0 ≤ lam) (hlam1 : lam ≤ 1) (hlamκ : lam ≤ κ)
    (hN : 100 * N * (1 + κ) ≤ 2 ^ 53)
    (dims : Fin N → Nat) (starts steps : Fin N → F64) (vals : List F64)
    (hG : (Axes.regular dims (fun k => val (starts k)) fun k => val (steps k)).Valid 2
      (vals.map val))
    (hfin : ∀ k, Finite (starts k) ∧ Finite (steps k)) (hnormal : ∀ k, 1 / 2 ^ 1022 ≤ val (steps k))
    (hnodes : ∀ k, |val (starts k)| ≤ (κ - lam) * val (steps k) ∧
      |val (starts k) + val (steps k) * ((dims k - 1 : Nat) : ℚ)| ≤ (κ - lam) * val (steps k))
    (hlarge : ∀ k, κ * val (steps k) ≤ 2 ^ 1020) (lo hi M : ℚ)
    (hv : ∀ v ∈ vals, Finite v ∧ lo ≤ val v ∧ val v ≤ hi) (hlo : |lo| ≤ M) (hhi : |hi| ≤ M)
    (hlam2 : (1 + 2 * lam) ^ N ≤ 2 ^ 1020) (hM : (1 + 2 * lam) ^ N * M ≤ 2 ^ 1020)
    (obs : Fin N → List F64) (hobs : ∀ k, ∀ x ∈ obs k, Finite x)
    (atol : F64) (hat : Finite atol) (hat0 : 0 ≤ val atol)
    (hatol : ∀ k, val atol + endError Format.binary64 (dims k) (val (starts k)) (val (steps k)) ≤
      lam * val (steps k))
    (out : List Bool) (hcheck : checkBoundsRegular (List.ofFn dims) (List.ofFn starts)
      (List.ofFn steps) (List.ofFn obs) atol out = (.ok (), List.replicate N false))
    (x : Fin N → F64) (hx : ∀ k, x k ∈ obs k) :
    ∃ r, multilinearRegularAt e fma dims starts steps vals x = .ok r ∧ Finite r ∧
      |val r - (lo + hi) / 2| ≤ (1 + 2 * lam) ^ N * ((hi - lo) / 2 +
        (60 * N * (1 + κ) * (1 / 2 ^ 53) * M + 3 * N * (1 / 2 ^ 1075))) := by
  have hb : ∀ k, 2 ≤ dims k := fun k => by simpa [Axes.size] using hG.big k
  have hpos : ∀ k, 0 < val (steps k) := fun k => lt_of_lt_of_le (by positivity) (hnormal k)
  have hwide : ∀ k, val (steps k) * ((dims k - 1 : Nat) : ℚ) ≤ 2 * κ * val (steps k) := fun k => by
    have h1 := abs_le.1 (hnodes k).1
    have h2 := abs_le.1 (hnodes k).2
    have := mul_nonneg hlam (hpos k).le
    nlinarith
  have hκ : ∀ _ : Fin N, 100 * (1 + κ) ≤ 2 ^ 53 := fun k => by
    have : (1 : ℚ) ≤ N := by exact_mod_cast (by have := k.2; omega : 1 ≤ N)
    nlinarith
  have hdims : ∀ k, dims k ≤ 2 ^ Format.binary64.p + 1 := fun k => by
    have h1 : ((dims k - 1 : Nat) : ℚ) ≤ 2 * κ := by
      have := hwide k
      rw [mul_comm] at this
      exact le_of_mul_le_mul_right this (hpos k)
    have h2 : ((dims k - 1 : Nat) : ℚ) ≤ (2 : ℚ) ^ 53 := by have := hκ k; linarith
    have h3 : dims k - 1 ≤ 2 ^ 53 := by exact_mod_cast h2
    show dims k ≤ 2 ^ 53 + 1
    omega
  have hbig : ∀ k, |val (starts k)| + (1 + Format.binary64.unitRoundoff) *
      (val (steps k) * ((dims k - 1 : Nat) : ℚ)) + Format.binary64.underflow ≤
        Format.binary64.omega := fun k => by
    have hΩ := binary64_Ω
    rw [binary64_u, binary64_η]
    have h1 := (hnodes k).1
    have h2 := hwide k
    have h3 := hlarge k
    have h4 := mul_nonneg hlam (hpos k).le
    have h5 : 0 ≤ val (steps k) * ((dims k - 1 : Nat) : ℚ) := mul_nonneg (hpos k).le (by positivity)
    refine le_trans ?_ hΩ
    norm_num at h3 ⊢
    linarith
  have hend : ∀ k, 0 ≤ endError Format.binary64 (dims k) (val (starts k)) (val (steps k)) :=
    fun k => by
      unfold endError
      rw [binary64_u, binary64_η]
      have := hpos k
      positivity
  have hins := inside_of_checkBoundsRegular (fun k => (by norm_num : 1 ≤ 2).trans (hb k)) hdims hfin
    hpos hbig hobs hat hat0 hcheck hx
  have e2 : ∀ k, ((dims k - 1 : Nat) : ℚ) - ((dims k - 2 : Nat) : ℚ) = 1 := fun k => by
    rw [Nat.cast_sub (by have := hb k; omega), Nat.cast_sub (hb k)]
    push_cast
    ring
  have hin : ∀ k, NearRange (dims k) (fun i => val (starts k) + val (steps k) * (i : ℚ)) lam
      (val (x k)) := fun k => by
    have h1 := hins k
    have h2 := hatol k
    have h3 := hend k
    have h4 : lam * (val (starts k) + val (steps k) * ((dims k - 1 : Nat) : ℚ) -
        (val (starts k) + val (steps k) * ((dims k - 2 : Nat) : ℚ))) = lam * val (steps k) := by
      rw [add_sub_add_left_eq_sub, ← mul_sub, e2 k, mul_one]
    constructor
    · push_cast
      linarith
    · show val (x k) ≤ val (starts k) + val (steps k) * ((dims k - 1 : Nat) : ℚ) + lam * _
      rw [h4]
      linarith
  have hMv : ∀ v ∈ vals, Finite v ∧ |val v| ≤ M := fun v hvm => by
    obtain ⟨h1, h2, h3⟩ := hv v hvm
    have := abs_le.1 hlo
    have := abs_le.1 hhi
    exact ⟨h1, abs_le.2 ⟨by linarith, by linarith⟩⟩
  have hxb : ∀ k, |val (x k)| ≤ κ * val (steps k) := fun k => by
    have h1 := hins k
    have h2 := hatol k
    have h3 := hend k
    have h4 := abs_le.1 (hnodes k).1
    have h5 := abs_le.1 (hnodes k).2
    rw [abs_le]
    constructor <;> linarith
  have hnodes' : ∀ k, |val (starts k)| ≤ κ * val (steps k) ∧
      |val (starts k) + val (steps k) * ((dims k - 1 : Nat) : ℚ)| ≤ κ * val (steps k) := fun k => by
    have := mul_nonneg hlam (hpos k).le
    exact ⟨by linarith [(hnodes k).1], by linarith [(hnodes k).2]⟩
  obtain ⟨r, y, h1, h2, h3, h4⟩ := C100_regular_f64 e he fma κ lam hlam hlamκ hN dims starts steps
    vals hG hfin hnormal hnodes' hlarge M hlam2 hM hMv x (fun k => ⟨hobs k _ (hx k), hxb k⟩) hin
  obtain ⟨y', h5, h6⟩ := multilinear_near e he fma
    (.regular dims (fun k => val (starts k)) fun k => val (steps k))
    (vals.map val) hG lo hi (by
      intro v hvm
      obtain ⟨w, hw, rfl⟩ := List.mem_map.1 hvm
      exact (hv w hw).2) (fun k => val (x k))
    (hG.nearRange_fits le_rfl hlam1 hin _ (by norm_num)) lam hlam hin
  obtain rfl : y = y' := by rw [h3] at h5; injection h5
  refine ⟨r, h1, h2, ?_⟩
  rw [mul_add]
  have := abs_add_le (val r - y) (y - (lo + hi) / 2)
  rw [sub_add_sub_cancel] at this
  linarith

/-- C113, `f32`, rectilinear grids, multilinear: if the bounds check flags no axis of a batch of
finite observations, every result is finite and leaves the range `lo..hi` of the values by no more
than the tolerance allows, up to rounding: `lam` bounds the tolerance in units of the end cells, `M`
the values. -/
theorem C113_rectilinear_f32 {N : Nat} (e : Evaluator) (he : e.Fits N) (hN : N ≤ 1000) (fma : Bool)
    (grids : Fin N → List F32) (vals : List F32)
    (hG : (Axes.rectilinear fun k => (grids k).map val).Valid 2 (vals.map val))
    (hgrid : ∀ k, ∀ a ∈ grids k, Finite a ∧ |val a| ≤ 2 ^ 125)
    (lo hi M lam : ℚ) (hv : ∀ v ∈ vals, Finite v ∧ lo ≤ val v ∧ val v ≤ hi)
    (hlo : |lo| ≤ M) (hhi : |hi| ≤ M) (hlam : 0 ≤ lam)
    (hlam2 : (1 + 2 * lam) ^ N ≤ 2 ^ 124) (hM : (1 + 2 * lam) ^ N * M ≤ 2 ^ 124)
    (obs : Fin N → List F32) (hobs : ∀ k, ∀ x ∈ obs k, Finite x)
    (atol : F32) (hat : Finite atol) (hat0 : 0 ≤ val atol) (hat1 : val atol ≤ 2 ^ 125)
    (hatol : ∀ k, val atol ≤ lam * (((grids k).map val).getD 1 0 - ((grids k).map val).getD 0 0) ∧
      val atol ≤ lam * (((grids k).map val).getD ((grids k).length - 1) 0 -
        ((grids k).map val).getD ((grids k).length - 2) 0))
    (out : List Bool) (hcheck : checkBoundsRectilinear (List.ofFn grids) (List.ofFn obs) atol out =
      (.ok (), List.replicate N false)) (x : Fin N → F32) (hx : ∀ k, x k ∈ obs k) :
    ∃ r, multilinearRectilinearAt e fma grids vals x = .ok r ∧ Finite r ∧
      |val r - (lo + hi) / 2| ≤ (1 + 2 * lam) ^ N *
        ((hi - lo) / 2 + (26 * N * (1 / 2 ^ 24) * M + 3 * N * (1 / 2 ^ 150))) := by
  have hb : ∀ k, 2 ≤ (grids k).length := fun k => by simpa [Axes.size] using hG.big k
  have hins := inside_of_checkBoundsRectilinear (fun k => (by norm_num : 1 ≤ 2).trans (hb k))
    (fun k a ha => (hgrid k a ha).1) hobs hat hat0 hcheck hx
  have hin : ∀ k, NearRange (grids k).length (fun i => ((grids k).map val).getD i 0) lam
      (val (x k)) := fun k =>
    ⟨by linarith [(hins k).1, (hatol k).1], by linarith [(hins k).2, (hatol k).2]⟩
  have hnode : ∀ k i, i < (grids k).length → |((grids k).map val).getD i 0| ≤ 2 ^ 125 := by
    intro k i hi
    rw [List.getD_eq_getElem _ _ (by simpa using hi), List.getElem_map]
    exact (hgrid k _ (List.getElem_mem hi)).2
  have hxb : ∀ k, |val (x k)| ≤ 2 ^ 126 := by
    intro k
    have h1 := abs_le.1 (hnode k 0 (by have := hb k; omega))
    have h2 := abs_le.1 (hnode k ((grids k).length - 1) (by have := hb k; omega))
    have h3 := hins k
    have e2 : (2 : ℚ) ^ 126 = 2 ^ 125 + 2 ^ 125 := by rw [pow_succ]; ring
    rw [abs_le, e2]
    constructor <;> linarith
  have hMv : ∀ v ∈ vals, Finite v ∧ |val v| ≤ M := fun v hvm => by
    obtain ⟨h1, h2, h3⟩ := hv v hvm
    have := abs_le.1 hlo
    have := abs_le.1 hhi
    exact ⟨h1, abs_le.2 ⟨by linarith, by linarith⟩⟩
  obtain ⟨r, y, h1, h2, h3, h4⟩ := C100_rectilinear_f32 e he hN fma grids vals hG
    (fun k a ha => ⟨(hgrid k a ha).1, (hgrid k a ha).2.trans
      (pow_le_pow_right₀ (by norm_num) (by norm_num))⟩) M lam hlam hlam2 hM hMv x
    (fun k => ⟨hobs k _ (hx k), hxb k⟩) hin
  obtain ⟨y', h5, h6⟩ := multilinear_near e he fma (.rectilinear fun k => (grids k).map val)
    (vals.map val) hG lo hi (by
      intro v hvm
      obtain ⟨w, hw, rfl⟩ := List.mem_map.1 hvm
      exact (hv w hw).2) (fun k => val (x k)) trivial lam hlam (by
      intro k
      show NearRange ((grids k).map val).length _ lam _
      rw [List.length_map]
      exact hin k)
  obtain rfl : y = y' := by rw [h3] at h5; injection h5
  refine ⟨r, h1, h2, ?_⟩
  rw [mul_add]
  have := abs_add_le (val r - y) (y - (lo + hi) / 2)
  rw [sub_add_sub_cancel] at this
  linarith

/-- C113, `f32`, regular grids, multilinear: the same. The tolerance and the error of the computed
end of the axis (`endError`, C85) are together at most `lam` steps; nodes widened by `lam` steps are
of size up to `κ` steps. -/
theorem C113_regular_f32 {N : Nat} (e : Evaluator) (he : e.Fits N) (fma : Bool) (κ lam : ℚ)
    (hlam : 0 ≤ lam) (hlam1 : lam ≤ 1) (hlamκ : lam ≤ κ)
    (hN : 100 * N * (1 + κ) ≤ 2 ^ 24)
    (dims : Fin N → Nat) (starts steps : Fin N → F32) (vals : List F32)
    (hG : (Axes.regular dims (fun k => val (starts k)) fun k => val (steps k)).Valid 2
      (vals.map val))
    (hfin : ∀ k, Finite (starts k) ∧ Finite (steps k)) (hnormal : ∀ k, 1 / 2 ^ 126 ≤ val (steps k))
    (hnodes : ∀ k, |val (starts k)| ≤ (κ - lam) * val (steps k) ∧
      |val (starts k) + val (steps k) * ((dims k - 1 : Nat) : ℚ)| ≤ (κ - lam) * val (steps k))
    (hlarge : ∀ k, κ * val (steps k) ≤ 2 ^ 124) (lo hi M : ℚ)
    (hv : ∀ v ∈ vals, Finite v ∧ lo ≤ val v ∧ val v ≤ hi) (hlo : |lo| ≤ M) (hhi : |hi| ≤ M)
    (hlam2 : (1 + 2 * lam) ^ N ≤ 2 ^ 124) (hM : (1 + 2 * lam) ^ N * M ≤ 2 ^ 124)
    (obs : Fin N → List F32) (hobs : ∀ k, ∀ x ∈ obs k, Finite x)
    (atol : F32) (hat : Finite atol) (hat0 : 0 ≤ val atol)
    (hatol : ∀ k, val atol + endError Format.binary32 (dims k) (val (starts k)) (val (steps k)) ≤
      lam * val (steps k))
    (out : List Bool) (hcheck : checkBoundsRegular (List.ofFn dims) (List.ofFn starts)
      (List.ofFn steps) (List.ofFn obs) atol out = (.ok (), List.replicate N false))
    (x : Fin N → F32) (hx : ∀ k, x k ∈ obs k) :
    ∃ r, multilinearRegularAt e fma dims starts steps vals x = .ok r ∧ Finite r ∧
      |val r - (lo + hi) / 2| ≤ (1 + 2 * lam) ^ N * ((hi - lo) / 2 +
        (60 * N * (1 + κ) * (1 / 2 ^ 24) * M + 3 * N * (1 / 2 ^ 150))) := by
  have hb : ∀ k, 2 ≤ dims k := fun k => by simpa [Axes.size] using hG.big k
  have hpos : ∀ k, 0 < val (steps k) := fun k => lt_of_lt_of_le (by positivity) (hnormal k)
  have hwide : ∀ k, val (steps k) * ((dims k - 1 : Nat) : ℚ) ≤ 2 * κ * val (steps k) := fun k => by
    have h1 := abs_le.1 (hnodes k).1
    have h2 := abs_le.1 (hnodes k).2
    have := mul_nonneg hlam (hpos k).le
    nlinarith
  have hκ : ∀ _ : Fin N, 100 * (1 + κ) ≤ 2 ^ 24 := fun k => by
    have : (1 : ℚ) ≤ N := by exact_mod_cast (by have := k.2; omega : 1 ≤ N)
    nlinarith
  have hdims : ∀ k, dims k ≤ 2 ^ Format.binary32.p + 1 := fun k => by
    have h1 : ((dims k - 1 : Nat) : ℚ) ≤ 2 * κ := by
      have := hwide k
      rw [mul_comm] at this
      exact le_of_mul_le_mul_right this (hpos k)
    have h2 : ((dims k - 1 : Nat) : ℚ) ≤ (2 : ℚ) ^ 24 := by have := hκ k; linarith
    have h3 : dims k - 1 ≤ 2 ^ 24 := by exact_mod_cast h2
    show dims k ≤ 2 ^ 24 + 1
    omega
  have hbig : ∀ k, |val (starts k)| + (1 + Format.binary32.unitRoundoff) *
      (val (steps k) * ((dims k - 1 : Nat) : ℚ)) + Format.binary32.underflow ≤
        Format.binary32.omega := fun k => by
    have hΩ := binary32_Ω
    rw [binary32_u, binary32_η]
    have h1 := (hnodes k).1
    have h2 := hwide k
    have h3 := hlarge k
    have h4 := mul_nonneg hlam (hpos k).le
    have h5 : 0 ≤ val (steps k) * ((dims k - 1 : Nat) : ℚ) := mul_nonneg (hpos k).le (by positivity)
    refine le_trans ?_ hΩ
    norm_num at h3 ⊢
    linarith
  have hend : ∀ k, 0 ≤ endError Format.binary32 (dims k) (val (starts k)) (val (steps k)) :=
    fun k => by
      unfold endError
      rw [binary32_u, binary32_η]
      have := hpos k
      positivity
  have hins := inside_of_checkBoundsRegular (fun k => (by norm_num : 1 ≤ 2).trans (hb k)) hdims hfin
    hpos hbig hobs hat hat0 hcheck hx
  have e2 : ∀ k, ((dims k - 1 : Nat) : ℚ) - ((dims k - 2 : Nat) : ℚ) = 1 := fun k => by
    rw [Nat.cast_sub (by have := hb k; omega), Nat.cast_sub (hb k)]
    push_cast
    ring
  have hin : ∀ k, NearRange (dims k) (fun i => val (starts k) + val (steps k) * (i : ℚ)) lam
      (val (x k)) := fun k => by
    have h1 := hins k
    have h2 := hatol k
    have h3 := hend k
    have h4 : lam * (val (starts k) + val (steps k) * ((dims k - 1 : Nat) : ℚ) -
        (val (starts k) + val (steps k) * ((dims k - 2 : Nat) : ℚ))) = lam * val (steps k) := by
      rw [add_sub_add_left_eq_sub, ← mul_sub, e2 k, mul_one]
    constructor
    · push_cast
      linarith
    · show val (x k) ≤ val (starts k) + val (steps k) * ((dims k - 1 : Nat) : ℚ) + lam * _
      rw [h4]
      linarith
  have hMv : ∀ v ∈ vals, Finite v ∧ |val v| ≤ M := fun v hvm => by
    obtain ⟨h1, h2, h3⟩ := hv v hvm
    have := abs_le.1 hlo
    have := abs_le.1 hhi
    exact ⟨h1, abs_le.2 ⟨by linarith, by linarith⟩⟩
  have hxb : ∀ k, |val (x k)| ≤ κ * val (steps k) := fun k => by
    have h1 := hins k
    have h2 := hatol k
    have h3 := hend k
    have h4 := abs_le.1 (hnodes k).1
    have h5 := abs_le.1 (hnodes k).2
    rw [abs_le]
    constructor <;> linarith
  have hnodes' : ∀ k, |val (starts k)| ≤ κ * val (steps k) ∧
      |val (starts k) + val (steps k) * ((dims k - 1 : Nat) : ℚ)| ≤ κ * val (steps k) := fun k => by
    have := mul_nonneg hlam (hpos k).le
    exact ⟨by linarith [(hnodes k).1], by linarith [(hnodes k).2]⟩
  obtain ⟨r, y, h1, h2, h3, h4⟩ := C100_regular_f32 e he fma κ lam hlam hlamκ hN dims starts steps
    vals hG hfin hnormal hnodes' hlarge M hlam2 hM hMv x (fun k => ⟨hobs k _ (hx k), hxb k⟩) hin
  obtain ⟨y', h5, h6⟩ := multilinear_near e he fma
    (.regular dims (fun k => val (starts k)) fun k => val (steps k))
    (vals.map val) hG lo hi (by
      intro v hvm
      obtain ⟨w, hw, rfl⟩ := List.mem_map.1 hvm
      exact (hv w hw).2) (fun k => val (x k))
    (hG.nearRange_fits le_rfl hlam1 hin _ (by norm_num)) lam hlam hin
  obtain rfl : y = y' := by rw [h3] at h5; injection h5
  refine ⟨r, h1, h2, ?_⟩
  rw [mul_add]
  have := abs_add_le (val r - y) (y - (lo + hi) / 2)
  rw [sub_add_sub_cancel] at this
  linarith

section Examples

section
attribute [local instance] exactOps

/-- Hypotheses of `C113_linear`: both axes pass with tolerance 1/4, a quarter of the narrowest end
cell, and one observation is outside on both axes. -/
example : ∃ y, multilinearAt .flat false (.rectilinear ![[0, 1, 3], [0, 2]])
      ([2, 6, -7, 16, 10, 3] : List ℚ) ![-1/8, 17/8] = .ok y ∧
    |y - (-7 + 16) / 2| ≤ (1 + 2 * (1/4)) ^ 2 * ((16 - -7) / 2) :=
  C113_linear .flat (show 0 < 2 by decide) false (.rectilinear ![[0, 1, 3], [0, 2]])
    [2, 6, -7, 16, 10, 3] (valid_of_check (by decide +kernel)) (-7) 16 (by decide +kernel)
    ![[1/2, -1/8], [17/8]] (1/4) [true, true] (by decide +kernel) (1/4) (by norm_num) (by norm_num)
    (by decide +kernel) ![-1/8, 17/8] (by decide +kernel)

/-- Hypotheses of `C113_cubic`, regular grid. -/
example : ∃ y, multicubicAt .flat false (.regular ![4] ![0] ![1]) ([0, 1, 0, 3] : List ℚ) true
      ![25/8] = .ok y ∧
    |y - (0 + 3) / 2| ≤ (1 + 1 ^ 2 / (2 * (1 + 1)) + 8 * 1 * (1/4 * (1 + 1/4))) ^ 1 * ((3 - 0) / 2) :=
  C113_cubic .flat (show 0 < 1 by decide) false (.regular ![4] ![0] ![1]) [0, 1, 0, 3] true
    (valid_of_check (by decide +kernel)) 0 3 (by decide +kernel) 1 le_rfl
    (fun k => meshRatio_of_check (by revert k; decide +kernel)) ![[1, 25/8]] (1/4) [true] (by decide +kernel) (1/4)
    (by norm_num) (by norm_num) (by decide +kernel) ![25/8] (by decide +kernel)

end

/-- Hypotheses of `C113_rectilinear_f64`. -/
example : ∃ r, multilinearRectilinearAt .flat false exGrids64 exVals64
      ![q64 (-1 / 32), q64 (97 / 32)] = .ok r ∧ Finite r ∧ |val r - (-16 + 16) / 2| ≤ 65 := by
  obtain ⟨r, h1, h2, h3⟩ := C113_rectilinear_f64 .flat (show 0 < 2 by decide) (by norm_num) false
    exGrids64 exVals64 (valid_of_check (by decide +kernel)) (by decide +kernel) (-16) 16 16 (1/2)
    (by decide +kernel) (by norm_num) (by norm_num) (by norm_num) (by norm_num) (by norm_num)
    ![[q64 (-1 / 32)], [q64 (97 / 32), q64 2]] (by decide +kernel) (q64 (1 / 25)) (by decide +kernel)
    (by decide +kernel) (by decide +kernel) (by decide +kernel) [true, true] (by decide +kernel)
    ![q64 (-1 / 32), q64 (97 / 32)] (by decide +kernel)
  exact ⟨r, h1, h2, h3.trans (by norm_num)⟩

/-- Hypotheses of `C113_regular_f64`, with nodes 0.1, 0.2, 0.3 on the first axis. -/
example : ∃ r, multilinearRegularAt (.recursive 8) true ![3, 2] ![q64 (1 / 10), q64 1]
      ![q64 (1 / 10), q64 2] exVals64 ![q64 (5 / 16), q64 (193 / 64)] = .ok r ∧ Finite r ∧
    |val r - (-16 + 16) / 2| ≤ 65 := by
  obtain ⟨r, h1, h2, h3⟩ := C113_regular_f64 (.recursive 8) (show 0 < 2 ∧ 2 ≤ 8 by decide) true
    5 (1/2) (by norm_num) (by norm_num) (by norm_num) (by norm_num) ![3, 2] ![q64 (1 / 10), q64 1]
    ![q64 (1 / 10), q64 2] exVals64
    (valid_of_check (by decide +kernel)) (by decide +kernel) (by decide +kernel) (by decide +kernel)
    (by decide +kernel) (-16) 16 16 (by decide +kernel) (by norm_num) (by norm_num) (by norm_num)
    (by norm_num) ![[q64 (5 / 16)], [q64 (193 / 64)]] (by decide +kernel) (q64 (1 / 32))
    (by decide +kernel) (by decide +kernel) (by decide +kernel) [true, false] (by decide +kernel)
    ![q64 (5 / 16), q64 (193 / 64)] (by decide +kernel)
  exact ⟨r, h1, h2, h3.trans (by norm_num)⟩

/-- Hypotheses of `C113_rectilinear_f32`. -/
example : ∃ r, multilinearRectilinearAt .flat false exGrids32 exVals32
      ![q32 (-1 / 32), q32 (97 / 32)] = .ok r ∧ Finite r ∧ |val r - (-16 + 16) / 2| ≤ 65 := by
  obtain ⟨r, h1, h2, h3⟩ := C113_rectilinear_f32 .flat (show 0 < 2 by decide) (by norm_num) false
    exGrids32 exVals32 (valid_of_check (by decide +kernel)) (by decide +kernel) (-16) 16 16 (1/2)
    (by decide +kernel) (by norm_num) (by norm_num) (by norm_num) (by norm_num) (by norm_num)
    ![[q32 (-1 / 32)], [q32 (97 / 32), q32 2]] (by decide +kernel) (q32 (1 / 25)) (by decide +kernel)
    (by decide +kernel) (by decide +kernel) (by decide +kernel) [true, true] (by decide +kernel)
    ![q32 (-1 / 32), q32 (97 / 32)] (by decide +kernel)
  exact ⟨r, h1, h2, h3.trans (by norm_num)⟩

/-- Hypotheses of `C113_regular_f32`, with nodes 0.1, 0.2, 0.3 on the first axis. -/
example : ∃ r, multilinearRegularAt (.recursive 8) true ![3, 2] ![q32 (1 / 10), q32 1]
      ![q32 (1 / 10), q32 2] exVals32 ![q32 (5 / 16), q32 (193 / 64)] = .ok r ∧ Finite r ∧
    |val r - (-16 + 16) / 2| ≤ 65 := by
  obtain ⟨r, h1, h2, h3⟩ := C113_regular_f32 (.recursive 8) (show 0 < 2 ∧ 2 ≤ 8 by decide) true
    5 (1/2) (by norm_num) (by norm_num) (by norm_num) (by norm_num) ![3, 2] ![q32 (1 / 10), q32 1]
    ![q32 (1 / 10), q32 2] exVals32
    (valid_of_check (by decide +kernel)) (by decide +kernel) (by decide +kernel) (by decide +kernel)
    (by decide +kernel) (-16) 16 16 (by decide +kernel) (by norm_num) (by norm_num) (by norm_num)
    (by norm_num) ![[q32 (5 / 16)], [q32 (193 / 64)]] (by decide +kernel) (q32 (1 / 32))
    (by decide +kernel) (by decide +kernel) (by decide +kernel) [true, false] (by decide +kernel)
    ![q32 (5 / 16), q32 (193 / 64)] (by decide +kernel)
  exact ⟨r, h1, h2, h3.trans (by norm_num)⟩

end Examples

end Interpn
