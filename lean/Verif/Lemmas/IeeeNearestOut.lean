import Verif.Lemmas.SimpleBounds
import Verif.Lemmas.IeeeConst
import Verif.Lemmas.IeeeSign
import Verif.Props.RoundingNearest

/-! The node chosen by nearest-neighbor interpolation in IEEE 754 arithmetic on one axis, at any
observation. -/

set_option autoImplicit false

namespace Interpn
open FloatOps Ieee
variable {f : Format}

theorem half_ieee : Finite (half : Ieee f) ∧ val (half : Ieee f) = 1 / 2 :=
  half_exact (exactIfFloat f) two_float half_float

theorem nearestOffset_inf : nearestOffset (inf false : Ieee f) = 1 := by
  obtain ⟨s, q, hr, hs, e⟩ := (half_ieee (f := f)).1.cases
  unfold nearestOffset
  rw [e]
  rfl

theorem nearestOffset_neg_inf : nearestOffset (inf true : Ieee f) = 0 := by
  obtain ⟨s, q, hr, hs, e⟩ := (half_ieee (f := f)).1.cases
  unfold nearestOffset
  rw [e]
  rfl

/-- The rounded width of a cell is a positive float. -/
theorem width_pos {a b : Ieee f} (hu : f.unitRoundoff < 1) (ha : Finite a ∧ 2 * |val a| ≤ f.omega)
    (hb : Finite b ∧ 2 * |val b| ≤ f.omega) (hab : val a < val b) :
    ∃ q hr hs, b -. a = fin false q hr hs ∧ q = f.roundQ (val b - val a) ∧ 0 < q := by
  obtain ⟨h1, h2⟩ := (rounds f).sub b a hb.1 ha.1 (by
    have := abs_sub (val b) (val a)
    linarith [ha.2, hb.2])
  rw [abs_of_pos (sub_pos.2 hab)] at h2
  have hpos : 0 < val (b -. a) := by
    have := (abs_le.1 h2).1
    have : f.unitRoundoff * (val b - val a) < 1 * (val b - val a) :=
      mul_lt_mul_of_pos_right hu (sub_pos.2 hab)
    linarith
  obtain ⟨t, e⟩ := sub_fin hb.1 ha.1
  have hv : val (b -. a) = f.roundQ (val b - val a) := by
    rw [e]
    rcases rnd_cases (f := f) t (val b - val a) with h | ⟨h, -⟩
    · exact h.2
    · rw [e, h] at h1; exact h1.elim
  obtain ⟨s, q, hr, hs, e'⟩ := h1.cases
  rw [e'] at hpos hv ⊢
  change 0 < q at hpos
  have : s = false := by rw [hs hpos.ne']; exact decide_eq_false (not_lt.2 hpos.le)
  subst this
  exact ⟨q, hr, hs, rfl, hv, hpos⟩

/-- At or above the upper end of the cell, the upper node is chosen. -/
theorem offset_above {a b x : Ieee f} (hu : f.unitRoundoff < 1) (ha : Finite a ∧ 2 * |val a| ≤ f.omega)
    (hb : Finite b ∧ 2 * |val b| ≤ f.omega) (hab : val a < val b) (hx : (b <=. x) = true) :
    nearestOffset ((x -. a) /. (b -. a)) = 1 := by
  obtain ⟨w, hr, hs, ew, hw, hw0⟩ := width_pos hu ha hb hab
  have hinf : ∀ d : Ieee f, d = inf false → nearestOffset (d /. (b -. a)) = 1 := by
    rintro _ rfl
    rw [ew]
    exact nearestOffset_inf
  obtain ⟨sb, qb, rb, ssb, eb⟩ := hb.1.cases
  rcases x with ⟨sx, qx, rx, ssx⟩ | ⟨sx⟩ | _
  · rw [eb] at hx
    have hle : qb ≤ qx := of_decide_eq_true hx
    have hvb : val b = qb := by rw [eb]; rfl
    obtain ⟨t, e⟩ := sub_fin (a := (fin sx qx rx ssx : Ieee f)) trivial ha.1
    change fin sx qx rx ssx -. a = rnd f t (qx - val a) at e
    have hpos : 0 < qx - val a := by linarith
    have hm : w ≤ f.roundQ (qx - val a) := by rw [hw]; exact f.roundQ_mono (by linarith)
    rcases rnd_cases (f := f) t (qx - val a) with ⟨h1, h2⟩ | ⟨h1, -⟩
    · rw [← e] at h1 h2
      obtain ⟨t', e'⟩ := div_fin h1 (b := b -. a) (by rw [ew]; trivial) (by rw [ew]; exact hw0.ne')
      have hq : 1 ≤ val (fin sx qx rx ssx -. a) / val (b -. a) := by
        rw [h2, ew]
        change 1 ≤ f.roundQ (qx - val a) / w
        rw [le_div_iff₀ hw0, one_mul]
        exact hm
      rw [e']
      rcases rnd_cases (f := f) t' (val (fin sx qx rx ssx -. a) / val (b -. a)) with ⟨h3, h4⟩ | ⟨h3, -⟩
      · rcases nearestOffset_float (exactCompareLe f) half_ieee h3 with ⟨h5, -⟩ | ⟨-, h5⟩
        · rw [h4] at h5
          have := f.le_roundQ f.one_repr hq
          norm_num at h5
          linarith
        · exact h5
      · rw [h3, decide_eq_false (not_lt.2 (by linarith))]
        exact nearestOffset_inf
    · refine hinf _ ?_
      rw [e, h1, decide_eq_false (not_lt.2 hpos.le)]
  · rw [eb] at hx
    have : sx = false := by cases sx <;> first | rfl | cases hx
    subst this
    obtain ⟨sa, qa, ra, ssa, ea⟩ := ha.1.cases
    refine hinf _ ?_
    rw [ea]
    rfl
  · rw [eb] at hx
    cases hx

/-- At or below the lower end of the cell, the lower node is chosen. -/
theorem offset_below {a b x : Ieee f} (hu : f.unitRoundoff < 1) (ha : Finite a ∧ 2 * |val a| ≤ f.omega)
    (hb : Finite b ∧ 2 * |val b| ≤ f.omega) (hab : val a < val b) (hx : (x <=. a) = true) :
    nearestOffset ((x -. a) /. (b -. a)) = 0 := by
  obtain ⟨w, hr, hs, ew, hw, hw0⟩ := width_pos hu ha hb hab
  have hinf : ∀ d : Ieee f, d = inf true → nearestOffset (d /. (b -. a)) = 0 := by
    rintro _ rfl
    rw [ew]
    exact nearestOffset_neg_inf
  have hΩ : 0 ≤ f.omega := by have := abs_nonneg (val a); linarith [ha.2]
  have hneg : ∀ q : ℚ, q ≤ 0 → f.omega < |f.roundQ q| → q < 0 := fun q h1 h2 => by
    rcases h1.lt_or_eq with h | h
    · exact h
    · rw [h, f.roundQ_zero, abs_zero] at h2; linarith
  obtain ⟨sa, qa, ra, ssa, ea⟩ := ha.1.cases
  rcases x with ⟨sx, qx, rx, ssx⟩ | ⟨sx⟩ | _
  · rw [ea] at hx
    have hle : qx ≤ qa := of_decide_eq_true hx
    have hva : val a = qa := by rw [ea]; rfl
    obtain ⟨t, e⟩ := sub_fin (a := (fin sx qx rx ssx : Ieee f)) trivial ha.1
    change fin sx qx rx ssx -. a = rnd f t (qx - val a) at e
    have hpos : qx - val a ≤ 0 := by linarith
    have hm := f.roundQ_nonpos hpos
    rcases rnd_cases (f := f) t (qx - val a) with ⟨h1, h2⟩ | ⟨h1, h2⟩
    · rw [← e] at h1 h2
      obtain ⟨t', e'⟩ := div_fin h1 (b := b -. a) (by rw [ew]; trivial) (by rw [ew]; exact hw0.ne')
      have hq : val (fin sx qx rx ssx -. a) / val (b -. a) ≤ 0 := by
        rw [h2, ew]
        exact div_nonpos_of_nonpos_of_nonneg hm hw0.le
      rw [e']
      rcases rnd_cases (f := f) t' (val (fin sx qx rx ssx -. a) / val (b -. a)) with ⟨h3, h4⟩ | ⟨h3, h4⟩
      · rcases nearestOffset_float (exactCompareLe f) half_ieee h3 with ⟨-, h5⟩ | ⟨h5, -⟩
        · exact h5
        · rw [h4] at h5
          have := f.roundQ_nonpos hq
          norm_num at h5
          linarith
      · rw [h3, decide_eq_true (hneg _ hq h4)]
        exact nearestOffset_neg_inf
    · refine hinf _ ?_
      rw [e, h1, decide_eq_true (hneg _ hpos h2)]
  · rw [ea] at hx
    have : sx = true := by cases sx <;> first | rfl | cases hx
    subst this
    refine hinf _ ?_
    rw [ea]
    rfl
  · rw [ea] at hx
    cases hx

section
variable {grid : List (Ieee f)} {x : Ieee f}

private theorem node_val {i : Nat} (hi : i < grid.length) :
    (grid.map val).getD i 0 = val (grid.getD i zero) := by
  rw [List.getD_eq_getElem _ _ (by simpa using hi), List.getElem_map, List.getD_eq_getElem _ _ hi]

/-- At or above the last node of a rectilinear axis the last node is chosen. -/
theorem nearRect_above (hu : f.unitRoundoff < 1) (h2 : 2 ≤ grid.length)
    (hgrid : ∀ a ∈ grid, Finite a ∧ 2 * |val a| ≤ f.omega)
    (hincr : Incr grid.length (fun i => (grid.map val).getD i 0))
    (hx : (grid.getD (grid.length - 1) zero <=. x) = true) :
    nearRectAxis grid x = grid.length - 1 := by
  have hmem : ∀ i, i < grid.length → Finite (grid.getD i zero) ∧ 2 * |val (grid.getD i zero)| ≤ f.omega :=
    fun i hi => by rw [List.getD_eq_getElem _ _ hi]; exact hgrid _ (List.getElem_mem hi)
  have hbelow : ∀ (i : Nat) (hi : i < grid.length), i + 1 < grid.length → (grid[i] <. x) = true := by
    intro i hi hi1
    have h1 := hmem _ (show grid.length - 1 < grid.length by omega)
    have h3 := hmem i hi
    have hlt := hincr.lt (show i < grid.length - 1 by omega) (by omega)
    simp only [node_val hi, node_val (show grid.length - 1 < grid.length by omega)] at hlt
    rw [List.getD_eq_getElem _ _ hi] at h3 hlt
    obtain ⟨s, q, r, ss, e⟩ := h1.1.cases
    obtain ⟨s', q', r', ss', e'⟩ := h3.1.cases
    rw [e] at hx hlt
    rw [e'] at hlt ⊢
    change q' < q at hlt
    rcases x with ⟨sx, qx, rx, ssx⟩ | ⟨sx⟩ | _
    · have : q ≤ qx := of_decide_eq_true hx
      exact decide_eq_true (lt_of_lt_of_le hlt this)
    · exact hx
    · cases hx
  have hcell : linCell grid x = grid.length - 2 := by
    by_cases hall : (grid[grid.length - 1]'(by omega) <. x) = true
    · have : grid.length - 1 < cellsBelow grid x := (cellsBelow_iff (fun i j hij hj hb => by
        by_cases hi : i + 1 < grid.length
        · exact hbelow i (by omega) hi
        · have : i = grid.length - 1 := by omega
          subst this; exact hall) _ (by omega)).1 hall
      unfold linCell; omega
    · have := (cellsBelow_iff (grid := grid) (v := x) (fun i j hij hj hb => by
        by_cases hi : i + 1 < grid.length
        · exact hbelow i (by omega) hi
        · have hi' : i = grid.length - 1 := by omega
          have hj' : j = grid.length - 1 := by omega
          subst hi'; subst hj'; exact hb) (grid.length - 2) (by omega)).1
        (hbelow _ _ (by omega))
      unfold linCell; omega
  unfold nearRectAxis cellPos
  rw [hcell, show grid.length - 2 + 1 = grid.length - 1 by omega]
  have hlt := hincr.lt (show grid.length - 2 < grid.length - 1 by omega) (by omega)
  simp only [node_val (show grid.length - 2 < grid.length by omega),
    node_val (show grid.length - 1 < grid.length by omega)] at hlt
  rw [offset_above hu (hmem _ (by omega)) (hmem _ (by omega)) hlt hx]
  omega

/-- At or below the first node of a rectilinear axis the first node is chosen. -/
theorem nearRect_below (hu : f.unitRoundoff < 1) (h2 : 2 ≤ grid.length)
    (hgrid : ∀ a ∈ grid, Finite a ∧ 2 * |val a| ≤ f.omega)
    (hincr : Incr grid.length (fun i => (grid.map val).getD i 0))
    (hx : (x <=. grid.getD 0 zero) = true) : nearRectAxis grid x = 0 := by
  have hmem : ∀ i, i < grid.length → Finite (grid.getD i zero) ∧ 2 * |val (grid.getD i zero)| ≤ f.omega :=
    fun i hi => by rw [List.getD_eq_getElem _ _ hi]; exact hgrid _ (List.getElem_mem hi)
  have habove : ∀ (i : Nat) (hi : i < grid.length), (grid[i] <. x) = false := by
    intro i hi
    have h1 := hmem 0 (by omega)
    have h3 := hmem i hi
    have hle := hincr.le (Nat.zero_le i) hi
    simp only [node_val hi, node_val (show 0 < grid.length by omega)] at hle
    rw [List.getD_eq_getElem _ _ hi] at h3 hle
    obtain ⟨s, q, r, ss, e⟩ := h1.1.cases
    obtain ⟨s', q', r', ss', e'⟩ := h3.1.cases
    rw [e] at hx hle
    rw [e'] at hle ⊢
    change q ≤ q' at hle
    rcases x with ⟨sx, qx, rx, ssx⟩ | ⟨sx⟩ | _
    · have : qx ≤ q := of_decide_eq_true hx
      exact decide_eq_false (not_lt.2 (this.trans hle))
    · cases sx
      · cases hx
      · rfl
    · cases hx
  have hcell : linCell grid x = 0 := by
    have := cellsBelow_iff (grid := grid) (v := x) (fun i j hij hj hb => by
      rw [habove j hj] at hb; cases hb) 0 (by omega)
    rw [habove 0 (by omega)] at this
    have : ¬ 0 < cellsBelow grid x := fun h => by simpa using this.2 h
    unfold linCell; omega
  unfold nearRectAxis cellPos
  rw [hcell]
  have hlt := hincr.lt (show 0 < 0 + 1 by omega) (by omega)
  simp only [node_val (show 0 < grid.length by omega),
    node_val (show 0 + 1 < grid.length by omega)] at hlt
  rw [offset_below hu (hmem _ (by omega)) (hmem _ (by omega)) hlt hx]

end

/-- Beyond the ends of a regular axis, as long as the number of the cell fits `isize`, the end node is
chosen. -/
theorem nearReg_beyond (hη : f.underflow ≤ f.unitRoundoff / 100) (hΩ1 : 2 ^ 70 ≤ f.omega)
    (hp : f.p ≤ 53) (fma : Bool) {κ X : ℚ} (hκ : 0 ≤ κ) (hX : X ≤ 2 ^ 61)
    (hN : 100 * ((1 + κ) * f.unitRoundoff) ≤ 1) {dim : Nat} (h2 : 2 ≤ dim) {s st x : Ieee f}
    (hs : Finite s) (hst : Finite st) (hpos : 0 < val st)
    (hnormal : f.underflow ≤ f.unitRoundoff * val st)
    (hnodes : |val s| ≤ κ * val st ∧ |val s + val st * ((dim - 1 : Nat) : ℚ)| ≤ κ * val st)
    (hlarge : 4 * (κ * val st) + 1 ≤ f.omega) (hx : Finite x) (hxX : |val x| ≤ X * val st)
    (hXlarge : 4 * (X * val st) + 1 ≤ f.omega) :
    (val x ≤ val s → nearRegAxis fma dim s st x = some 0) ∧
    (val s + val st * ((dim - 1 : Nat) : ℚ) ≤ val x → nearRegAxis fma dim s st x = some (dim - 1)) := by
  have h := rounds f
  have hu0 := h.u_nonneg
  have hη0 := h.η_nonneg
  obtain ⟨hu1, huκ', hκ53, hdim⟩ := regular_setup hp hκ hN
  have hA0 : 0 ≤ κ * val st := by positivity
  have hd2 : ((dim - 1 : Nat) : ℚ) ≤ 2 * κ := by
    have h1 := abs_le.1 hnodes.1
    have h3 := abs_le.1 hnodes.2
    have : val st * ((dim - 1 : Nat) : ℚ) ≤ val st * (2 * κ) := by linarith [h1.1, h3.2]
    exact le_of_mul_le_mul_left this hpos
  have hd1 : (1 : ℚ) ≤ ((dim - 1 : Nat) : ℚ) := by exact_mod_cast (by omega : 1 ≤ dim - 1)
  have hwhole : ExactWhole (T := Ieee f) val Finite (2 ^ f.p + 1) := exactWhole f le_rfl
  have hne := nodeError_simple hu0 hκ hpos hu1 huκ' hnormal
  have hne0 := nodeError_nonneg hu0 hη0 hA0
  have hne1 : nodeError f.unitRoundoff f.underflow (κ * val st) ≤ 1 / 10 * val st := by
    rwa [div_le_iff₀ hpos] at hne
  have hne2 : nodeError f.unitRoundoff f.underflow (κ * val st) ≤ 1 / 25 * (κ * val st) + 1 / 50 := by
    unfold nodeError
    have h1 : 3 * f.unitRoundoff + 2 * f.unitRoundoff ^ 2 ≤ 1 / 25 := by nlinarith
    have h2 : (1 + f.unitRoundoff) * f.underflow ≤ 2 * (1 / 100) := by
      have : f.underflow ≤ 1 / 100 := by linarith
      have : 1 + f.unitRoundoff ≤ 2 := by linarith
      gcongr
    have : (3 * f.unitRoundoff + 2 * f.unitRoundoff ^ 2) * (κ * val st) ≤ 1 / 25 * (κ * val st) := by
      gcongr
    linarith
  -- the position in steps
  obtain ⟨q, hq⟩ : ∃ q, q = (val x - val s) / val st := ⟨_, rfl⟩
  have hxq : val x = val s + val st * q := by rw [hq, mul_div_cancel₀ _ hpos.ne']; ring
  have hqb : |q| ≤ X + κ := by
    have h1 := abs_sub (val x) (val s)
    have h3 : |q| * val st = |val x - val s| := by
      rw [hq, abs_div, abs_of_pos hpos, div_mul_cancel₀ _ hpos.ne']
    refine le_of_mul_le_mul_right ?_ hpos
    rw [h3]
    linarith [hnodes.1]
  have hX0 : 0 ≤ X := by
    have : 0 ≤ X * val st := (abs_nonneg _).trans hxX
    exact nonneg_of_mul_nonneg_left this hpos
  have hbig : (X + κ : ℚ) ≤ 2 ^ 61 + 2 ^ 53 := by linarith
  have hqbig : |q| ≤ 2 ^ 62 - 1 := hqb.trans (hbig.trans (by norm_num))
  have huq : f.unitRoundoff * |q| ≤ 1 / 100 * |q| := by gcongr
  obtain ⟨hpf, hpe⟩ := rounds_quot h (b := val s) (τ := 0) (R := |q|) hx hs hst hpos (by simp)
    (by have := abs_sub (val x) (val s); linarith [hnodes.1]) (by rw [hq])
    (by
      rw [zero_div, add_zero]
      have : (1 + f.unitRoundoff) * |q| ≤ 2 * 2 ^ 62 := by
        have : 1 + f.unitRoundoff ≤ 2 := by linarith
        have : |q| ≤ 2 ^ 62 := by linarith
        gcongr
      refine this.trans (le_trans (by norm_num) hΩ1))
  rw [zero_div, mul_zero, add_zero, ← hq] at hpe
  set q' := val ((x -. s) /. st) with hq'
  have he1 : 2 * f.unitRoundoff + f.unitRoundoff ^ 2 ≤ 201 / 100 * f.unitRoundoff := by nlinarith
  have he : (2 * f.unitRoundoff + f.unitRoundoff ^ 2) * |q| ≤ 201 / 100 * (f.unitRoundoff * |q|) := by
    rw [← mul_assoc]
    gcongr
  have hη1 : f.underflow ≤ 1 / 10000 := by linarith
  have hpe1 : |q' - q| ≤ 201 / 100 * (f.unitRoundoff * |q|) + 1 / 10000 := by linarith
  have hb := abs_le.1 hpe1
  have hbq := abs_le.1 hqbig
  have hmin : isizeMin ≤ ⌊q'⌋ := by
    rw [Int.le_floor]
    simp only [isizeMin]
    push_cast
    norm_num at *
    linarith [hb.1]
  have hmax : ⌊q'⌋ ≤ isizeMax := by
    have h1 := Int.floor_le q'
    have h3 : (⌊q'⌋ : ℚ) ≤ (isizeMax : Int) := by
      simp only [isizeMax]
      push_cast
      norm_num at *
      linarith [hb.2]
    exact_mod_cast h3
  have hraw : rawCell s st x = some ⌊q'⌋ := hwhole.toIsize _ hpf hmin hmax
  -- the weight in the cell `c`
  have hweight : ∀ c : Nat, c ≤ dim - 1 → ∃ w : Ieee f, Finite w ∧
      |val w - (q - c)| ≤ 1 / 40 * |q - c| + 1 / 20 ∧
      (clampIdx ⌊q'⌋ (dim - 2) = c → nearRegAxis fma dim s st x = some (c + nearestOffset w)) := by
    intro c hc
    obtain ⟨F, hf1, hf2, hf3⟩ := hwhole.ofUsize c (by have := hdim dim hd2; omega)
    have hcK : (c : ℚ) ≤ ((dim - 1 : Nat) : ℚ) := by exact_mod_cast hc
    have hAc : |val s + val st * (c : ℚ)| ≤ κ * val st := by
      have h1 := abs_le.1 hnodes.1
      have h3 := abs_le.1 hnodes.2
      have h4 : val st * (c : ℚ) ≤ val st * ((dim - 1 : Nat) : ℚ) := by gcongr
      have h5 : 0 ≤ val st * (c : ℚ) := by positivity
      rw [abs_le]
      constructor <;> linarith [h1.1, h3.2]
    have hnode := rounds_node h fma hs hst hf2 hf3 hnodes.1 hAc (by
      have : 2 * (1 + f.unitRoundoff) * (κ * val st) ≤ 2 * (1 + 1 / 100) * (κ * val st) := by gcongr
      linarith)
    have hxn : (val x - (val s + val st * (c : ℚ))) / val st = q - c := by
      rw [hxq]; field_simp; ring
    have hcb : |q - c| ≤ 2 ^ 62 + 2 ^ 55 := by
      have a := abs_sub q (c : ℚ)
      rw [abs_of_nonneg (show (0 : ℚ) ≤ c by positivity)] at a
      have b : (c : ℚ) ≤ 2 ^ 55 := by
        have : (2 : ℚ) * 2 ^ 53 ≤ 2 ^ 55 := by norm_num
        linarith
      linarith
    have hw := rounds_quot h (b := val s + val st * (c : ℚ))
      (τ := nodeError f.unitRoundoff f.underflow (κ * val st)) (R := |q - c|) hx hnode.1
      hst hpos hnode.2 (by
        have := abs_sub (val x) (val s + val st * (c : ℚ))
        linarith)
      (by rw [hxn])
      (by
        have : (1 + f.unitRoundoff) * (|q - c| + nodeError f.unitRoundoff f.underflow (κ * val st) /
            val st) ≤ 2 * (2 ^ 62 + 2 ^ 55 + 1 / 10) := by
          have : 1 + f.unitRoundoff ≤ 2 := by linarith
          have : 0 ≤ nodeError f.unitRoundoff f.underflow (κ * val st) / val st := by positivity
          gcongr
        exact this.trans (le_trans (by norm_num) hΩ1))
    rw [hxn] at hw
    refine ⟨_, hw.1, ?_, fun hcl => ?_⟩
    · have e := regularWeightError_simple (R := |q - c|) hu0 hη hκ hpos hu1 hnormal (abs_nonneg _)
      unfold regularWeightError at e
      refine (hw.2.trans e).trans ?_
      have : f.unitRoundoff * |q - c| ≤ 1 / 100 * |q - c| := by gcongr
      have := abs_nonneg (q - c)
      linarith
    · unfold nearRegAxis linRegAxis
      rw [hraw]
      simp only [hcl]
      rw [hf1]
      rfl
  have hoff := fun w (hw : Finite (f := f) w) => nearestOffset_float (exactCompareLe f) half_ieee hw
  constructor
  · intro hxs
    have hq0 : q ≤ 0 := by rw [hq]; exact div_nonpos_of_nonpos_of_nonneg (by linarith) hpos.le
    obtain ⟨w, hw1, hw2, hw3⟩ := hweight 0 (by omega)
    rw [Nat.cast_zero, sub_zero, abs_of_nonpos hq0] at hw2
    rw [abs_of_nonpos hq0] at hb huq
    have hfl : ⌊q'⌋ < 1 := by
      rw [Int.floor_lt]; push_cast; linarith [hb.2]
    rw [hw3 (by unfold clampIdx; omega)]
    rcases hoff w hw1 with ⟨-, h5⟩ | ⟨h5, -⟩
    · rw [h5]
    · have := (abs_le.1 hw2).2
      linarith
  · intro hxe
    have hq1 : ((dim - 1 : Nat) : ℚ) ≤ q := by
      rw [hq, le_div_iff₀ hpos]; linarith
    obtain ⟨w, hw1, hw2, hw3⟩ := hweight (dim - 2) (by omega)
    have e : ((dim - 1 : Nat) : ℚ) = ((dim - 2 : Nat) : ℚ) + 1 := by
      rw [show dim - 1 = (dim - 2) + 1 by omega]
      push_cast; ring
    have hqc : 1 ≤ q - ((dim - 2 : Nat) : ℚ) := by linarith
    rw [abs_of_nonneg (by linarith : 0 ≤ q - ((dim - 2 : Nat) : ℚ))] at hw2
    rw [abs_of_nonneg (by linarith : 0 ≤ q)] at hb
    have hfl : ((dim - 2 : Nat) : Int) ≤ ⌊q'⌋ := by
      rw [Int.le_floor]
      push_cast
      have h3 : f.unitRoundoff * ((dim - 1 : Nat) : ℚ) ≤ f.unitRoundoff * (2 * κ) := by gcongr
      have h4 : f.unitRoundoff * (q - ((dim - 1 : Nat) : ℚ)) ≤ 1 / 100 * (q - ((dim - 1 : Nat) : ℚ)) :=
        mul_le_mul_of_nonneg_right hu1 (by linarith)
      linarith [hb.1]
    rw [hw3 (by unfold clampIdx; omega)]
    rcases hoff w hw1 with ⟨h5, -⟩ | ⟨-, h5⟩
    · have := (abs_le.1 hw2).1
      linarith
    · rw [h5, show dim - 2 + 1 = dim - 1 by omega]

/-- In the range of a rectilinear axis. -/
theorem nearRect_within (hu : f.unitRoundoff ≤ 1 / 100) (hη : f.underflow ≤ f.unitRoundoff / 100)
    (hΩ : 2 ≤ f.omega) {grid : List (Ieee f)} {x : Ieee f} (h2 : 2 ≤ grid.length)
    (hgrid : ∀ a ∈ grid, Finite a ∧ 2 * |val a| ≤ f.omega)
    (hincr : Incr grid.length (fun i => (grid.map val).getD i 0)) (hx : Finite x)
    (hin : InRange grid.length (fun i => (grid.map val).getD i 0) (val x)) :
    NearestWithin grid.length (fun i => (grid.map val).getD i 0) (val x)
      (7 * f.unitRoundoff *
        ((grid.map val).getD (linCell grid x + 1) 0 - (grid.map val).getD (linCell grid x) 0))
      (nearRectAxis grid x) := by
  have h := rounds f
  have hu0 := h.u_nonneg
  have hτ : weightCost f.unitRoundoff ≤ 31 / 10 * f.unitRoundoff := by
    unfold weightCost
    rw [div_le_iff₀ (by linarith)]
    nlinarith
  obtain ⟨h3, h4⟩ := rounds_nearRect h (exactCompare f) (exactCompareLe f) half_ieee (by linarith) h2
    hgrid hincr ⟨hx, inRange_small h2 (fun a ha => (hgrid a ha).2) hin⟩ le_rfl
    ⟨by have := hin.1; linarith, by have := hin.2; linarith⟩ (by linarith)
  refine ⟨h4.1, fun j hj => (h4.2 j hj).trans ?_⟩
  have hw := hincr _ h3.1
  simp only at hw
  have : 2 * (weightCost f.unitRoundoff * (1 + 0) + f.underflow) ≤ 7 * f.unitRoundoff := by linarith
  have := mul_le_mul_of_nonneg_right this (sub_pos.2 hw).le
  linarith

/-- In the range of a regular axis. -/
theorem nearReg_within (hη : f.underflow ≤ f.unitRoundoff / 100) (hΩ1 : 2 ^ 70 ≤ f.omega)
    (hp : f.p ≤ 53) (fma : Bool) {κ : ℚ} (hκ : 0 ≤ κ) (hN : 100 * ((1 + κ) * f.unitRoundoff) ≤ 1)
    {dim : Nat} (h2 : 2 ≤ dim) {s st x : Ieee f} (hs : Finite s) (hst : Finite st) (hpos : 0 < val st)
    (hnormal : f.underflow ≤ f.unitRoundoff * val st)
    (hnodes : |val s| ≤ κ * val st ∧ |val s + val st * ((dim - 1 : Nat) : ℚ)| ≤ κ * val st)
    (hlarge : 4 * (κ * val st) + 1 ≤ f.omega) (hx : Finite x)
    (hin : InRange dim (fun i => val s + val st * (i : ℚ)) (val x)) :
    ∃ i, nearRegAxis fma dim s st x = some i ∧
      NearestWithin dim (fun i => val s + val st * (i : ℚ)) (val x)
        (7 * (1 + κ) * f.unitRoundoff * val st) i := by
  have h := rounds f
  have hu0 := h.u_nonneg
  have hη0 := h.η_nonneg
  obtain ⟨hu1, huκ', hκ53, hdim⟩ := regular_setup hp hκ hN
  have hunits := regular_units hpos hnodes hin
  have hpe := positionError_simple (lam := 0) hu0 hη le_rfl zero_le_two
    (Nat.cast_nonneg (α := ℚ) (dim - 1)) hunits.1 hu1 huκ'
  have hpe0 : 0 ≤ positionError f.unitRoundoff f.underflow (((dim - 1 : Nat) : ℚ) + 0) :=
    positionError_nonneg hu0 hη0 (by positivity)
  obtain ⟨i, h1, h3⟩ := rounds_nearReg h (exactCompareLe f) half_ieee
    (exactWhole f (n := 2 ^ f.p + 1) le_rfl) fma (hdim _ hunits.1) h2 hs hst hx hpos le_rfl hnodes
    ⟨by have := hin.1; linarith, by have := hin.2; linarith⟩
    (axisInBounds_simple hu0 hη0 hη hκ hpos hu1 huκ' hnormal le_rfl zero_le_two
      hunits.1 hunits.2 hlarge hκ53 hΩ1) (by linarith)
  refine ⟨i, h1, h3.1, fun j hj => (h3.2 j hj).trans ?_⟩
  have hw := regularWeightError_simple hu0 hη hκ hpos hu1 hnormal
    (R := 1 + 0 + positionError f.unitRoundoff f.underflow (((dim - 1 : Nat) : ℚ) + 0))
    (by linarith)
  have hR : 201 / 100 * f.unitRoundoff *
      (1 + 0 + positionError f.unitRoundoff f.underflow (((dim - 1 : Nat) : ℚ) + 0)) ≤
      201 / 100 * f.unitRoundoff * (1 + 0 + 1 / 10) := by
    gcongr
  have huκ0 : 0 ≤ f.unitRoundoff * κ := by positivity
  have : 2 * regularWeightError f.unitRoundoff f.underflow (κ * val st) (val st)
      (1 + 0 + positionError f.unitRoundoff f.underflow (((dim - 1 : Nat) : ℚ) + 0)) ≤
      7 * (1 + κ) * f.unitRoundoff := by
    have hz := hw.trans (add_le_add_left (add_le_add_left hR _) _)
    generalize regularWeightError f.unitRoundoff f.underflow _ _ _ = W at hz ⊢
    clear * - hz hu0 huκ0
    nlinarith
  have := mul_le_mul_of_nonneg_right this hpos.le
  linarith

end Interpn
