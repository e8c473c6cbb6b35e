import Verif.Lemmas.NodeFloat
import Verif.Lemmas.IeeeNeg
import Verif.Lemmas.OneDim

/-! The node chosen by the staircase interpolators never moves back when the observation grows, in
IEEE 754 arithmetic (C128). -/

set_option autoImplicit false
set_option linter.unusedSectionVars false

namespace Interpn
open FloatOps

theorem clampIdx_mono {z z' : Int} (m : Nat) (h : z ≤ z') : clampIdx z m ≤ clampIdx z' m := by
  unfold clampIdx; omega

namespace Ieee
variable {f : Format}

theorem le_trans {a b c : Ieee f} (h1 : (a <=. b) = true) (h2 : (b <=. c) = true) :
    (a <=. c) = true := by
  change le a b = true at h1
  change le b c = true at h2
  change le a c = true
  cases a <;> cases b <;> cases c <;> simp_all [le]
  · exact _root_.le_trans h1 h2
  · rcases h1 with h1 | h1
    · exact .inl h1
    · rcases h2 with h2 | h2
      · rw [h1] at h2; cases h2
      · exact .inr h2

theorem lt_of_lt_of_le {a b c : Ieee f} (h1 : (a <. b) = true) (h2 : (b <=. c) = true) :
    (a <. c) = true := by
  change lt a b = true at h1
  change le b c = true at h2
  change lt a c = true
  cases a <;> cases b <;> cases c <;> simp_all [lt, le]
  exact _root_.lt_of_lt_of_le h1 h2

theorem le_of_not_lt {a b : Ieee f} (ha : a ≠ nan) (hb : b ≠ nan) (h : (b <. a) = false) :
    (a <=. b) = true := by
  change lt b a = false at h
  change le a b = true
  cases a <;> cases b <;> simp_all [lt, le]
  next s t => cases s <;> cases t <;> simp_all

theorem rnd_not_nan (s : Bool) (q : ℚ) : rnd f s q ≠ nan := by
  rcases rnd_cases (f := f) s q with h | h
  · intro e; rw [e] at h; exact h.1
  · rw [h.1]; exact fun e => by cases e

theorem rnd_le (s t : Bool) {q q' : ℚ} (h : q ≤ q') : (rnd f s q <=. rnd f t q') = true :=
  le_of_not_lt (rnd_not_nan _ _) (rnd_not_nan _ _) (rnd_mono s t h)

theorem neg_inf_le {b : Ieee f} (hb : b ≠ nan) : ((inf true : Ieee f) <=. b) = true := by
  change le _ _ = true
  cases b <;> simp_all [le]

theorem le_inf {a : Ieee f} (ha : a ≠ nan) : (a <=. (inf false : Ieee f)) = true := by
  change le _ _ = true
  cases a <;> simp_all [le]

/-- Subtracting a number keeps the order, infinities included. -/
theorem sub_mono {x y a : Ieee f} (ha : Finite a) (h : (x <=. y) = true) :
    (x -. a <=. y -. a) = true := by
  obtain ⟨sa, qa, hra, hsa, rfl⟩ := ha.cases
  change le x y = true at h
  rcases x with ⟨sx, qx, hx, hx'⟩ | sx | _ <;> rcases y with ⟨sy, qy, hy, hy'⟩ | sy | _ <;>
    simp [le] at h
  · exact rnd_le _ _ (by linarith)
  · subst h; exact le_inf (rnd_not_nan _ _)
  · subst h; exact neg_inf_le (rnd_not_nan _ _)
  · rcases h with rfl | rfl
    · exact neg_inf_le (fun e => by cases e)
    · exact le_inf (fun e => by cases e)

/-- Dividing by a positive number keeps the order, infinities included. -/
theorem div_mono {x y w : Ieee f} (hw : Finite w) (hw0 : 0 < val w) (h : (x <=. y) = true) :
    (x /. w <=. y /. w) = true := by
  obtain ⟨sw, qw, hrw, hsw, rfl⟩ := hw.cases
  change 0 < qw at hw0
  have : sw = false := by rw [hsw hw0.ne']; exact decide_eq_false (not_lt.2 hw0.le)
  subst this
  change le x y = true at h
  have hdiv : ∀ (s : Bool) (q : ℚ) (hr hs), (fin s q hr hs : Ieee f) /. fin false qw hrw hsw =
      rnd f (xor s false) (q / qw) := fun s q hr hs => if_neg hw0.ne'
  rcases x with ⟨sx, qx, hx, hx'⟩ | sx | _ <;> rcases y with ⟨sy, qy, hy, hy'⟩ | sy | _ <;>
    simp [le] at h
  · rw [hdiv, hdiv]; exact rnd_le _ _ (div_le_div_of_nonneg_right h hw0.le)
  · subst h; rw [hdiv]; exact le_inf (rnd_not_nan _ _)
  · subst h; rw [hdiv]; exact neg_inf_le (rnd_not_nan _ _)
  · rcases h with rfl | rfl
    · exact neg_inf_le (fun e => by cases e)
    · exact le_inf (fun e => by cases e)

theorem offset_mono {x y : Ieee f} (h : (x <=. y) = true) : nearestOffset x ≤ nearestOffset y := by
  unfold nearestOffset
  by_cases hy : (y <=. half) = true
  · rw [if_pos (le_trans h hy)]; exact Nat.zero_le _
  · rw [if_neg hy]; split <;> decide

theorem floor_mono {x y : Ieee f} (h : (x <=. y) = true) :
    (FloatOps.floor x <=. FloatOps.floor y) = true := by
  change le x y = true at h
  change le (floor x) (floor y) = true
  cases x <;> cases y <;> simp_all [le, floor]
  exact Int.floor_mono h

theorem truncZ_mono {a b : ℚ} (h : a ≤ b) : truncZ a ≤ truncZ b := by
  unfold truncZ
  split <;> split
  · exact Int.floor_mono h
  · next h1 h2 => exact absurd (h1.trans h) h2
  · next h1 h2 =>
    have : ⌈a⌉ ≤ 0 := Int.ceil_le.2 (by push_cast; linarith [not_le.1 h1])
    exact this.trans (Int.floor_nonneg.2 h2)
  · exact Int.ceil_mono h

theorem toIsize_mono {x y : Ieee f} {z z' : Int} (h : (x <=. y) = true)
    (hx : FloatOps.toIsize x = some z) (hy : FloatOps.toIsize y = some z') : z ≤ z' := by
  change le x y = true at h
  change toIsize x = _ at hx
  change toIsize y = _ at hy
  cases x <;> cases y <;> simp_all [le, toIsize]
  rw [← hx.2, ← hy.2]
  exact truncZ_mono h

/-- The cell number on a regular axis, before clamping. -/
theorem rawCell_mono {start step x y : Ieee f} {z z' : Int} (hs : Finite start) (hd : Finite step)
    (hd0 : (zero <. step) = true) (h : (x <=. y) = true) (hx : rawCell start step x = some z)
    (hy : rawCell start step y = some z') : z ≤ z' := by
  have hpos : 0 < val step := by
    have := (exactCompare f _ _ zero_eq.1 hd).1 hd0
    rwa [zero_eq.2] at this
  exact toIsize_mono (floor_mono (div_mono hd hpos (sub_mono hs h))) hx hy

/-- An observation whose cell number exists is finite. -/
theorem finite_of_rawCell {start step x : Ieee f} {z : Int} (hs : Finite start) (hd : Finite step)
    (hx : rawCell start step x = some z) : Finite x := by
  obtain ⟨_, _, _, _, rfl⟩ := hs.cases
  obtain ⟨_, _, _, _, rfl⟩ := hd.cases
  cases x
  · trivial
  · exact absurd hx (by intro h; cases h)
  · exact absurd hx (by intro h; cases h)

theorem nearRegAxis_mono (fma : Bool) {dim : Nat} {start step x y : Ieee f} {i j : Nat}
    (hs : Finite start) (hd : Finite step) (hd0 : (zero <. step) = true) (h : (x <=. y) = true)
    (hx : nearRegAxis fma dim start step x = some i) (hy : nearRegAxis fma dim start step y = some j) :
    i ≤ j := by
  have hpos : 0 < val step := by
    have := (exactCompare f _ _ zero_eq.1 hd).1 hd0
    rwa [zero_eq.2] at this
  unfold nearRegAxis at hx hy
  rw [Option.map_eq_some_iff] at hx hy
  obtain ⟨⟨c, t⟩, hc, rfl⟩ := hx
  obtain ⟨⟨c', t'⟩, hc', rfl⟩ := hy
  unfold linRegAxis at hc hc'
  split at hc
  · cases hc
  next z hz =>
  split at hc'
  · cases hc'
  next z' hz' =>
  have hzz := rawCell_mono hs hd hd0 h hz hz'
  have fx := finite_of_rawCell hs hd hz
  have fy := finite_of_rawCell hs hd hz'
  have hcc := clampIdx_mono (dim - 2) hzz
  split at hc
  · cases hc
  next g hg =>
  split at hc'
  · cases hc'
  next g' hg' =>
  cases hc
  cases hc'
  rcases Nat.eq_or_lt_of_le hcc with heq | hlt
  · rw [← heq] at hg' ⊢
    rw [hg, Option.some.injEq] at hg'
    subst hg'
    refine Nat.add_le_add_left ?_ _
    dsimp only
    generalize (if fma then FloatOps.mulAdd step g start else start +. step *. g) = p
    obtain ⟨_, _, _, _, rfl⟩ := fx.cases
    obtain ⟨_, _, _, _, rfl⟩ := fy.cases
    cases p with
    | fin s q hr hs => exact offset_mono (div_mono hd hpos (sub_mono trivial h))
    | inf s => exact Nat.le_refl _
    | nan => exact Nat.le_refl _
  · have h1 := nearestOffset_le ((x -. (if fma then FloatOps.mulAdd step g start else start +. step *. g)) /. step)
    dsimp only
    omega

/-! ### Rectilinear axes -/

theorem cellsBelow_mono {grid : List (Ieee f)} (hsort : SortedAxis grid) {x y : Ieee f}
    (h : (x <=. y) = true) : cellsBelow grid x ≤ cellsBelow grid y := by
  by_contra hlt
  have hl := cellsBelow_le grid x
  have h1 := (cellsBelow_iff (belowPrefix hsort x) (cellsBelow grid y) (by omega)).2 (by omega)
  have h2 := (cellsBelow_iff (belowPrefix hsort y) (cellsBelow grid y) (by omega)).1
    (lt_of_lt_of_le h1 h)
  omega

theorem linCell_mono {grid : List (Ieee f)} (hsort : SortedAxis grid) {x y : Ieee f}
    (h : (x <=. y) = true) : linCell grid x ≤ linCell grid y := by
  have := cellsBelow_mono hsort h
  unfold linCell; omega

theorem unitRoundoff_lt_one : f.unitRoundoff < 1 := by
  unfold Format.unitRoundoff
  have := f.two_le_p
  rw [div_lt_one (by positivity)]
  exact one_lt_pow₀ (by norm_num) (by omega)

/-- The quotient of a positive number by a zero does not depend on the number. -/
theorem div_zero_const {a b x : Ieee f} (ha : Finite a) (hb : Finite b) (hab : val a = val b)
    (hx : (a <. x) = true) : ∃ s, b -. a = fin s 0 f.zero_repr (fun h => absurd rfl h) ∧
      (x -. a) /. (b -. a) = inf s := by
  obtain ⟨hf, hv⟩ := sub_same ha hb hab.symm
  obtain ⟨s, q, hr, hs, e⟩ := hf.cases
  rw [e] at hv
  change q = 0 at hv
  subst hv
  refine ⟨s, e, ?_⟩
  rw [e]
  rcases x with ⟨sx, qx, hx1, hx2⟩ | sx | _
  · have hlt := (exactCompare f _ (fin sx qx hx1 hx2) ha trivial).1 hx
    rcases width_cases ha (b := fin sx qx hx1 hx2) trivial hlt with ⟨h1, h2⟩ | h'
    · obtain ⟨t, r, hr', hs', e'⟩ := h1.cases
      rw [e'] at h2 ⊢
      change 0 < r at h2
      have : t = false := by rw [hs' h2.ne']; exact decide_eq_false (not_lt.2 h2.le)
      subst this
      have h0 := (if_neg h2.ne' : (if r = 0 then nan else inf (xor false s) : Ieee f) = inf (xor false s))
      rw [Bool.false_xor] at h0
      have h3 : (fin false r hr' hs' : Ieee f) /. fin s 0 hr hs =
          if (0 : ℚ) = 0 then (if r = 0 then nan else inf (xor false s)) else
            rnd f (xor false s) (r / 0) := rfl
      rw [h3, if_pos rfl, Bool.false_xor, h0]
    · rw [h']
      change inf (xor false s) = _
      rw [Bool.false_xor]
  · obtain ⟨sa, qa, hra, hsa, rfl⟩ := ha.cases
    change (!sx) = true at hx
    have : sx = false := by simpa using hx
    subst this
    change inf (xor false s) = _
    rw [Bool.false_xor]
  · obtain ⟨sa, qa, hra, hsa, rfl⟩ := ha.cases
    cases hx

/-- The node chosen on a rectilinear axis. Nodes may be repeated, but not the first one. -/
theorem nearRectAxis_mono {grid : List (Ieee f)} (h2 : 2 ≤ grid.length)
    (hfin : ∀ a ∈ grid, Finite a ∧ 2 * |val a| ≤ f.omega) (hsort : SortedAxis grid)
    (h01 : (grid.getD 0 zero <. grid.getD 1 zero) = true) {x y : Ieee f} (h : (x <=. y) = true) :
    nearRectAxis grid x ≤ nearRectAxis grid y := by
  have hc := linCell_mono hsort h
  unfold nearRectAxis cellPos
  rcases Nat.eq_or_lt_of_le hc with heq | hlt
  · rw [← heq]
    refine Nat.add_le_add_left ?_ _
    have hb := linCell_bound h2 x
    have e0 : grid.getD (linCell grid x) zero = grid[linCell grid x]'(by omega) :=
      List.getD_eq_getElem _ _ _
    have e1 : grid.getD (linCell grid x + 1) zero = grid[linCell grid x + 1]'(by omega) :=
      List.getD_eq_getElem _ _ _
    have f0 := hfin _ (List.getElem_mem (l := grid) (n := linCell grid x) (by omega))
    have f1 := hfin _ (List.getElem_mem (l := grid) (n := linCell grid x + 1) (by omega))
    have hle : val (grid[linCell grid x]'(by omega)) ≤ val (grid[linCell grid x + 1]'(by omega)) :=
      (exactCompareLe f _ _ f0.1 f1.1).1
        (List.pairwise_iff_getElem.1 hsort _ _ (by omega) (by omega) (by omega))
    rcases hle.lt_or_eq with hl | he
    · obtain ⟨q, hr, hs, ew, -, hq⟩ := width_pos unitRoundoff_lt_one f0 f1 hl
      dsimp only
      rw [e0, e1, ew]
      exact offset_mono (div_mono trivial hq (sub_mono f0.1 h))
    · have hpos : 0 < linCell grid x := by
        by_contra h0
        have h0' : linCell grid x = 0 := by omega
        simp only [h0'] at he f0 f1
        rw [List.getD_eq_getElem _ _ (by omega), List.getD_eq_getElem _ _ (by omega),
          exactCompare f _ _ f0.1 f1.1] at h01
        exact absurd he h01.ne
      have hx : (grid[linCell grid x]'(by omega) <. x) = true := by
        rw [cellsBelow_iff (belowPrefix hsort x)]
        unfold linCell at hpos ⊢
        omega
      obtain ⟨s, hw, hs⟩ := div_zero_const f0.1 f1.1 he hx
      obtain ⟨t, hw', ht⟩ := div_zero_const f0.1 f1.1 he (lt_of_lt_of_le hx h)
      rw [hw'] at hw
      cases hw
      dsimp only
      rw [e0, e1, hs, ht]
  · have := nearestOffset_le ((x -. grid.getD (linCell grid x) zero) /.
      (grid.getD (linCell grid x + 1) zero -. grid.getD (linCell grid x) zero))
    dsimp only
    omega

/-! ### Comparison of distances -/

theorem abs_roundQ (q : ℚ) : |f.roundQ q| = f.roundQ |q| := by
  have h0 : ∀ q : ℚ, 0 ≤ q → 0 ≤ f.roundQ q := fun q h => by
    rw [← f.roundQ_zero]; exact f.roundQ_mono h
  rcases le_total 0 q with h | h
  · rw [abs_of_nonneg h, abs_of_nonneg (h0 q h)]
  · rw [abs_of_nonpos h, roundQ_neg, abs_of_nonpos]
    have := h0 (-q) (by linarith)
    rw [roundQ_neg] at this
    linarith

theorem abs_rnd_mono (s t : Bool) {q q' : ℚ} (h : |q| ≤ |q'|) :
    (FloatOps.abs (rnd f s q) <=. FloatOps.abs (rnd f t q')) = true := by
  have hr : |f.roundQ q| ≤ |f.roundQ q'| := by
    rw [abs_roundQ, abs_roundQ]; exact f.roundQ_mono h
  rcases rnd_cases (f := f) s q with ⟨h1, h2⟩ | ⟨h1, h2⟩ <;>
    rcases rnd_cases (f := f) t q' with ⟨h1', h2'⟩ | ⟨h1', h2'⟩
  · obtain ⟨s1, q1, hr1, hs1, e1⟩ := h1.cases
    obtain ⟨s2, q2, hr2, hs2, e2⟩ := h1'.cases
    rw [e1] at h2
    rw [e2] at h2'
    rw [e1, e2]
    change q1 = _ at h2
    change q2 = _ at h2'
    change decide (|q1| ≤ |q2|) = true
    rw [h2, h2']
    exact decide_eq_true hr
  · obtain ⟨s1, q1, hr1, hs1, e1⟩ := h1.cases
    rw [e1, h1']; rfl
  · have hh : |f.roundQ q'| ≤ f.omega := by
      rw [← h2']
      obtain ⟨s2, q2, hr2, hs2, e2⟩ := h1'.cases
      rw [e2]
      exact hr2.le_omega
    exact absurd (h2.trans_le hr) (not_lt.2 hh)
  · rw [h1, h1']; rfl

theorem abs_sub_mono {x y a b : Ieee f} (hx : Finite x) (hy : Finite y) (ha : Finite a) (hb : Finite b)
    (h : |val x - val a| ≤ |val y - val b|) :
    (FloatOps.abs (x -. a) <=. FloatOps.abs (y -. b)) = true := by
  obtain ⟨s, e⟩ := sub_fin hx ha
  obtain ⟨t, e'⟩ := sub_fin hy hb
  rw [e, e']
  exact abs_rnd_mono s t h

/-- The choice of `Nearest1D`: which of the two nodes of the cell. -/
def distOffset {T : Type} [FloatOps T] (a b x : T) : Nat :=
  if (FloatOps.abs (x -. a) <=. FloatOps.abs (x -. b)) = true then 0 else 1

/-- In or below the cell, the choice of `Nearest1D` moves up only. -/
theorem distOffset_mono {a b x y : Ieee f} (ha : Finite a) (hb : Finite b) (hab : val a ≤ val b)
    (h : (x <=. y) = true) (hy : (y <=. b) = true) : distOffset a b x ≤ distOffset a b y := by
  unfold distOffset
  by_cases h1 : (FloatOps.abs (y -. a) <=. FloatOps.abs (y -. b)) = true
  · suffices hs : (FloatOps.abs (x -. a) <=. FloatOps.abs (x -. b)) = true by
      rw [if_pos hs]; exact Nat.zero_le _
    have hxb := le_trans h hy
    have hfx : Finite x ∨ x = inf true := by
      obtain ⟨_, _, _, _, rfl⟩ := hb.cases
      rcases x with _ | s | _
      · exact .inl trivial
      · right; change s = true at hxb; rw [hxb]
      · cases hxb
    rcases hfx with hfx | rfl
    · have hxb' := (exactCompareLe f _ _ hfx hb).1 hxb
      have hfy : Finite y := by
        obtain ⟨_, _, _, _, rfl⟩ := hb.cases
        obtain ⟨_, _, _, _, rfl⟩ := hfx.cases
        rcases y with _ | s | _
        · trivial
        · change s = true at hy; change (!s) = true at h; rw [hy] at h; cases h
        · cases h
      have hxy := (exactCompareLe f _ _ hfx hfy).1 h
      have hyb := (exactCompareLe f _ _ hfy hb).1 hy
      rcases le_total (val x) (val a) with hxa | hxa
      · refine abs_sub_mono hfx hfx ha hb ?_
        rw [abs_of_nonpos (by linarith), abs_of_nonpos (by linarith)]
        linarith
      · refine le_trans (abs_sub_mono hfx hfy ha ha ?_) (le_trans h1 (abs_sub_mono hfy hfx hb hb ?_))
        · rw [abs_of_nonneg (by linarith), abs_of_nonneg (by linarith)]; linarith
        · rw [abs_of_nonpos (by linarith), abs_of_nonpos (by linarith)]; linarith
    · obtain ⟨_, _, _, _, rfl⟩ := ha.cases
      obtain ⟨_, _, _, _, rfl⟩ := hb.cases
      rfl
  · rw [if_neg h1]; split <;> decide

/-! ### The held end of the cell -/

/-- Node of `Left1D`. -/
def leftIdx (e : Extrap) (c : Nat) : Nat := match e with | .outsideHigh => c + 1 | _ => c

/-- Node of `Right1D`. -/
def rightIdx (e : Extrap) (c : Nat) : Nat := match e with | .outsideLow => c | _ => c + 1

theorem leftIdx_le (e : Extrap) (c : Nat) : leftIdx e c ≤ c + 1 := by
  cases e <;> simp [leftIdx]

theorem rightIdx_le (e : Extrap) (c : Nat) : rightIdx e c ≤ c + 1 := by
  cases e <;> simp [rightIdx]

theorem le_rightIdx (e : Extrap) (c : Nat) : c ≤ rightIdx e c := by
  cases e <;> simp [rightIdx]

theorem le_leftIdx (e : Extrap) (c : Nat) : c ≤ leftIdx e c := by
  cases e <;> simp [leftIdx]

theorem lt_false_of_le {x y lo : Ieee f} (h : (x <=. y) = true) (hx : (x <. lo) = false) :
    (y <. lo) = false := by
  by_contra h'
  rw [lt_of_le_of_lt h (by simpa using h')] at hx
  cases hx

theorem leftIdx_HL {lo hi x y : Ieee f} {c c' : Nat} (h : (x <=. y) = true) (hc : c ≤ c') :
    leftIdx (extrapHL lo hi x) c ≤ leftIdx (extrapHL lo hi y) c' := by
  unfold extrapHL
  by_cases hx : (hi <. x) = true
  · rw [if_pos hx, if_pos (lt_of_lt_of_le hx h)]
    exact Nat.add_le_add_right hc 1
  · rw [if_neg hx]
    refine Nat.le_trans (Nat.le_trans ?_ hc) (le_leftIdx _ c')
    split <;> exact Nat.le_refl _

theorem leftIdx_LH {lo hi x y : Ieee f} {c c' : Nat} (h : (x <=. y) = true) (hc : c ≤ c') :
    leftIdx (extrapLH lo hi x) c ≤ leftIdx (extrapLH lo hi y) c' := by
  unfold extrapLH
  cases hl : x <. lo
  · rw [lt_false_of_le h hl]
    simp only [Bool.false_eq_true, if_false]
    by_cases hx : (hi <. x) = true
    · rw [if_pos hx, if_pos (lt_of_lt_of_le hx h)]
      exact Nat.add_le_add_right hc 1
    · rw [if_neg hx]
      exact Nat.le_trans hc (le_leftIdx _ c')
  · rw [if_pos rfl]
    exact Nat.le_trans hc (le_leftIdx _ c')

theorem rightIdx_HL {lo hi x y : Ieee f} {c c' : Nat} (h : (x <=. y) = true) (hc : c ≤ c') :
    rightIdx (extrapHL lo hi x) c ≤ rightIdx (extrapHL lo hi y) c' := by
  unfold extrapHL
  by_cases hx : (hi <. x) = true
  · rw [if_pos hx, if_pos (lt_of_lt_of_le hx h)]
    exact Nat.add_le_add_right hc 1
  · rw [if_neg hx]
    cases hl : x <. lo
    · rw [lt_false_of_le h hl]
      simp only [Bool.false_eq_true, if_false]
      split <;> exact Nat.add_le_add_right hc 1
    · rw [if_pos rfl]
      exact Nat.le_trans hc (le_rightIdx _ c')

theorem rightIdx_LH {lo hi x y : Ieee f} {c c' : Nat} (h : (x <=. y) = true) (hc : c ≤ c') :
    rightIdx (extrapLH lo hi x) c ≤ rightIdx (extrapLH lo hi y) c' := by
  unfold extrapLH
  cases hl : x <. lo
  · rw [lt_false_of_le h hl]
    simp only [Bool.false_eq_true, if_false]
    split <;> split <;> exact Nat.add_le_add_right hc 1
  · rw [if_pos rfl]
    exact Nat.le_trans hc (le_rightIdx _ c')

end Ieee
end Interpn
