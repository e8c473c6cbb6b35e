import Verif.Lemmas.Ieee
import Verif.Lemmas.Api
import Verif.Lemmas.Accept
import Verif.Lemmas.TensorAlg
import Verif.Lemmas.RoundingNearest

/-! Signs and order of rounded results in IEEE 754 arithmetic. -/

set_option autoImplicit false

namespace Interpn
namespace Ieee
open FloatOps
variable {f : Format}

/-- A number in [0, 1], or NaN. -/
def WeightOk (t : Ieee f) : Prop := t = nan ∨ (Finite t ∧ 0 ≤ val t ∧ val t ≤ 1)

theorem rnd_cases (s : Bool) (q : ℚ) :
    ((rnd f s q).Finite ∧ (rnd f s q).val = f.roundQ q) ∨
      (rnd f s q = inf (decide (q < 0)) ∧ f.omega < |f.roundQ q|) := by
  unfold rnd
  split
  · exact .inl ⟨trivial, rfl⟩
  · next h => exact .inr ⟨rfl, not_le.1 h⟩

/-- The computed position in a cell that contains the observation is in [0, 1], or NaN if the cell is
wider than the largest float. -/
theorem weightOk {a b x : Ieee f} (ha : Finite a) (hb : Finite b) (hx : Finite x)
    (h1 : val a ≤ val x) (h2 : val x ≤ val b) : WeightOk ((x -. a) /. (b -. a)) := by
  obtain ⟨s, e1⟩ := sub_fin hx ha
  obtain ⟨t, e2⟩ := sub_fin hb ha
  have hm : f.roundQ (val x - val a) ≤ f.roundQ (val b - val a) := f.roundQ_mono (by linarith)
  have h0 : 0 ≤ f.roundQ (val x - val a) := f.roundQ_nonneg (by linarith)
  rw [e1, e2]
  rcases rnd_cases (f := f) t (val b - val a) with ⟨hbf, hbv⟩ | ⟨hb', hbo⟩
  · rcases rnd_cases (f := f) s (val x - val a) with ⟨haf, hav⟩ | ⟨ha', hao⟩
    · by_cases hz : (rnd f t (val b - val a)).val = 0
      · left
        rw [hbv] at hz
        have h3 : f.roundQ (val x - val a) = 0 := le_antisymm (hz ▸ hm) h0
        obtain ⟨s1, q1, r1, w1, g1⟩ := hbf.cases
        obtain ⟨s2, q2, r2, w2, g2⟩ := haf.cases
        have i1 : q1 = 0 := by rw [g1] at hbv; rw [hz] at hbv; exact hbv
        have i2 : q2 = 0 := by rw [g2] at hav; rw [h3] at hav; exact hav
        rw [g1, g2]
        show (if q1 = 0 then (if q2 = 0 then nan else _) else _) = nan
        rw [if_pos i1, if_pos i2]
      · right
        obtain ⟨w, e3⟩ := div_fin haf hbf hz
        rw [e3, hav, hbv]
        rw [hbv] at hz
        have hpos : 0 < f.roundQ (val b - val a) := lt_of_le_of_ne (h0.trans hm) (Ne.symm hz)
        exact rnd_between w f.zero_repr f.one_repr (div_nonneg h0 hpos.le)
          ((div_le_one hpos).2 hm)
    · exfalso
      have := hbf.repr.le_omega
      rw [hbv, abs_of_nonneg (h0.trans hm)] at this
      rw [abs_of_nonneg h0] at hao
      linarith
  · rw [hb']
    rcases rnd_cases (f := f) s (val x - val a) with ⟨haf, hav⟩ | ⟨ha', hao⟩
    · right
      obtain ⟨s2, q2, r2, w2, g2⟩ := haf.cases
      rw [g2]
      exact ⟨trivial, le_rfl, zero_le_one⟩
    · left
      rw [ha']; rfl

/-- Not a negative number: at least zero, +∞ or NaN. -/
def NotNeg (v : Ieee f) : Prop := v = nan ∨ v = inf false ∨ (Finite v ∧ 0 ≤ val v)

theorem NotNeg_iff (v : Ieee f) : NotNeg v ↔ (v <. zero) = false := by
  unfold NotNeg
  cases v with
  | nan => exact ⟨fun _ => rfl, fun _ => .inl rfl⟩
  | inf s => cases s <;> simp [FloatOps.lt, lt, FloatOps.zero, Finite]
  | fin s q hr hs =>
    show _ ↔ decide (q < 0) = false
    rw [decide_eq_false_iff_not, not_lt]
    constructor
    · rintro (h | h | h)
      · cases h
      · cases h
      · exact h.2
    · exact fun h => .inr (.inr ⟨trivial, h⟩)

theorem rnd_NotNeg (s : Bool) {q : ℚ} (h : 0 ≤ q) : NotNeg (rnd f s q) := by
  rcases rnd_cases (f := f) s q with ⟨h1, h2⟩ | ⟨h1, h2⟩
  · exact .inr (.inr ⟨h1, by rw [h2]; exact f.roundQ_nonneg h⟩)
  · rw [h1]
    right; left
    congr 1
    rw [decide_eq_false_iff_not]; linarith

/-- The blend of two such numbers is another one. -/
theorem lerp_NotNeg (fma : Bool) {t : Ieee f} (ht : WeightOk t) {v : Fin 2 → Ieee f} (h0 : NotNeg (v 0))
    (h1 : NotNeg (v 1)) : NotNeg (lerp fma t v) := by
  unfold lerp
  simp only
  generalize v 0 = y0 at *
  generalize v 1 = y1 at *
  have nanR : ∀ a : Ieee f, (a +. nan : Ieee f) = nan := fun a => by cases a <;> rfl
  have nanL : ∀ a : Ieee f, (nan +. a : Ieee f) = nan := fun a => by cases a <;> rfl
  rcases ht with rfl | ⟨ht, ht0, ht1⟩
  · cases fma
    · left
      have : (nan *. (y1 -. y0) : Ieee f) = nan := by cases (y1 -. y0) <;> rfl
      simp only [Bool.false_eq_true, if_false, this, nanR]
    · left; rfl
  obtain ⟨st, qt, rt, wt, rfl⟩ := ht.cases
  change 0 ≤ qt at ht0
  change qt ≤ 1 at ht1
  have hst : qt ≠ 0 → st = false := fun h => by
    rw [wt h, decide_eq_false_iff_not]; linarith
  rcases h0 with rfl | rfl | ⟨h0, hv0⟩
  · left
    cases fma
    · rfl
    · cases y1 <;> rfl
  · left
    rcases h1 with rfl | rfl | ⟨h1, hv1⟩
    · cases fma <;> rfl
    · cases fma <;> rfl
    · obtain ⟨s1, q1, r1, w1, rfl⟩ := h1.cases
      by_cases hz : qt = 0
      · subst hz
        cases fma <;> rfl
      · have := hst hz
        subst this
        have e : ((fin false qt rt wt : Ieee f) *. inf true) = inf true := if_neg hz
        cases fma
        · show (inf false +. ((fin false qt rt wt : Ieee f) *. inf true)) = nan
          rw [e]; rfl
        · show (((fin false qt rt wt : Ieee f) *. inf true) +. inf false) = nan
          rw [e]; rfl
  · obtain ⟨s0, q0, r0, w0, rfl⟩ := h0.cases
    rcases h1 with rfl | rfl | ⟨h1, hv1⟩
    · left; cases fma <;> rfl
    · by_cases hz : qt = 0
      · subst hz
        left; cases fma <;> rfl
      · have := hst hz
        subst this
        right; left
        have e : ((fin false qt rt wt : Ieee f) *. inf false) = inf false := if_neg hz
        cases fma
        · show ((fin s0 q0 r0 w0 : Ieee f) +. ((fin false qt rt wt : Ieee f) *. inf false)) = inf false
          rw [e]; rfl
        · show (((fin false qt rt wt : Ieee f) *. inf false) +. (fin s0 q0 r0 w0 : Ieee f)) = inf false
          rw [e]; rfl
    · have hd := (staysBetween f).sub y1 (fin s0 q0 r0 w0) (-. (fin s0 q0 r0 w0)) y1 h1 trivial (neg_eq (a := (fin s0 q0 r0 w0 : Ieee f)) trivial).1 h1 (by
        change -q0 ≤ val y1 - q0; linarith) (by
        change 0 ≤ q0 at hv0; change val y1 - q0 ≤ val y1; linarith)
      obtain ⟨hdf, hd1, hd2⟩ := hd
      change 0 ≤ q0 at hv0
      generalize (y1 -. (fin s0 q0 r0 w0 : Ieee f)) = dy at *
      have hDV : -q0 ≤ val dy := hd1
      have key : 0 ≤ qt * val dy + q0 := by
        rcases le_total 0 (val dy) with h | h <;> nlinarith
      cases fma
      · simp only [Bool.false_eq_true, if_false]
        obtain ⟨w, e⟩ := mul_fin (a := (fin st qt rt wt : Ieee f)) (b := dy) trivial hdf
        have hp : (rnd f w (qt * val dy)).Finite ∧ -q0 ≤ (rnd f w (qt * val dy)).val := by
          rcases le_total 0 (val dy) with h | h
          · have := rnd_between (f := f) w f.zero_repr hdf.repr (mul_nonneg ht0 h)
              (by nlinarith)
            exact ⟨this.1, by linarith [this.2.1, this.2.2]⟩
          · have := rnd_between (f := f) w (q := qt * val dy) hdf.repr f.zero_repr (by nlinarith)
              (mul_nonpos_of_nonneg_of_nonpos ht0 h)
            exact ⟨this.1, by linarith [this.2.1, this.2.2]⟩
        change ((fin st qt rt wt : Ieee f) *. dy) = rnd f w (qt * val dy) at e
        rw [e]
        obtain ⟨w2, e2⟩ := add_fin (a := (fin s0 q0 r0 w0 : Ieee f)) (b := rnd f w (qt * val dy))
          trivial hp.1
        rw [e2]
        refine rnd_NotNeg w2 ?_
        change 0 ≤ q0 + (rnd f w (qt * val dy)).val
        linarith [hp.2]
      · simp only [if_true]
        obtain ⟨w, e⟩ := mulAdd_fin (a := (fin st qt rt wt : Ieee f)) (b := dy)
          (c := (fin s0 q0 r0 w0 : Ieee f)) trivial hdf trivial
        rw [e]
        exact rnd_NotNeg w key

/-- Not a positive number: at most zero, -∞ or NaN. -/
def NotPos (v : Ieee f) : Prop := v = nan ∨ v = inf true ∨ (Finite v ∧ val v ≤ 0)

theorem NotPos_iff (v : Ieee f) : NotPos v ↔ (zero <. v) = false := by
  unfold NotPos
  cases v with
  | nan => exact ⟨fun _ => rfl, fun _ => .inl rfl⟩
  | inf s => cases s <;> simp [FloatOps.lt, lt, FloatOps.zero, Finite]
  | fin s q hr hs =>
    show _ ↔ decide (0 < q) = false
    rw [decide_eq_false_iff_not, not_lt]
    constructor
    · rintro (h | h | h)
      · cases h
      · cases h
      · exact h.2
    · exact fun h => .inr (.inr ⟨trivial, h⟩)

theorem rnd_NotPos (s : Bool) {q : ℚ} (h : q ≤ 0) : NotPos (rnd f s q) := by
  rcases rnd_cases (f := f) s q with ⟨h1, h2⟩ | ⟨h1, h2⟩
  · exact .inr (.inr ⟨h1, by rw [h2]; exact f.roundQ_nonpos h⟩)
  · rw [h1]
    right; left
    congr 1
    rw [decide_eq_true_eq]
    refine lt_of_le_of_ne h ?_
    rintro rfl
    rw [f.roundQ_zero, abs_zero] at h2
    linarith [f.omega_pos]

/-- The blend of two such numbers is another one. -/
theorem lerp_NotPos (fma : Bool) {t : Ieee f} (ht : WeightOk t) {v : Fin 2 → Ieee f} (h0 : NotPos (v 0))
    (h1 : NotPos (v 1)) : NotPos (lerp fma t v) := by
  unfold lerp
  simp only
  generalize v 0 = y0 at *
  generalize v 1 = y1 at *
  have nanR : ∀ a : Ieee f, (a +. nan : Ieee f) = nan := fun a => by cases a <;> rfl
  have nanL : ∀ a : Ieee f, (nan +. a : Ieee f) = nan := fun a => by cases a <;> rfl
  rcases ht with rfl | ⟨ht, ht0, ht1⟩
  · cases fma
    · left
      have : (nan *. (y1 -. y0) : Ieee f) = nan := by cases (y1 -. y0) <;> rfl
      simp only [Bool.false_eq_true, if_false, this, nanR]
    · left; rfl
  obtain ⟨st, qt, rt, wt, rfl⟩ := ht.cases
  change 0 ≤ qt at ht0
  change qt ≤ 1 at ht1
  have hst : qt ≠ 0 → st = false := fun h => by
    rw [wt h, decide_eq_false_iff_not]; linarith
  rcases h0 with rfl | rfl | ⟨h0, hv0⟩
  · left
    cases fma
    · rfl
    · cases y1 <;> rfl
  · left
    rcases h1 with rfl | rfl | ⟨h1, hv1⟩
    · cases fma <;> rfl
    · cases fma <;> rfl
    · obtain ⟨s1, q1, r1, w1, rfl⟩ := h1.cases
      by_cases hz : qt = 0
      · subst hz
        cases fma <;> rfl
      · have := hst hz
        subst this
        have e : ((fin false qt rt wt : Ieee f) *. inf false) = inf false := if_neg hz
        cases fma
        · show (inf true +. ((fin false qt rt wt : Ieee f) *. inf false)) = nan
          rw [e]; rfl
        · show (((fin false qt rt wt : Ieee f) *. inf false) +. inf true) = nan
          rw [e]; rfl
  · obtain ⟨s0, q0, r0, w0, rfl⟩ := h0.cases
    rcases h1 with rfl | rfl | ⟨h1, hv1⟩
    · left; cases fma <;> rfl
    · by_cases hz : qt = 0
      · subst hz
        left; cases fma <;> rfl
      · have := hst hz
        subst this
        right; left
        have e : ((fin false qt rt wt : Ieee f) *. inf true) = inf true := if_neg hz
        cases fma
        · show ((fin s0 q0 r0 w0 : Ieee f) +. ((fin false qt rt wt : Ieee f) *. inf true)) = inf true
          rw [e]; rfl
        · show (((fin false qt rt wt : Ieee f) *. inf true) +. (fin s0 q0 r0 w0 : Ieee f)) = inf true
          rw [e]; rfl
    · have hd := (staysBetween f).sub y1 (fin s0 q0 r0 w0) y1 (-. (fin s0 q0 r0 w0)) h1 trivial h1 (neg_eq (a := (fin s0 q0 r0 w0 : Ieee f)) trivial).1 (by
        change q0 ≤ 0 at hv0; change val y1 ≤ val y1 - q0; linarith) (by
        change val y1 - q0 ≤ -q0; linarith)
      obtain ⟨hdf, hd1, hd2⟩ := hd
      change q0 ≤ 0 at hv0
      generalize (y1 -. (fin s0 q0 r0 w0 : Ieee f)) = dy at *
      have hDV : val dy ≤ -q0 := hd2
      have key : qt * val dy + q0 ≤ 0 := by
        rcases le_total 0 (val dy) with h | h <;> nlinarith
      cases fma
      · simp only [Bool.false_eq_true, if_false]
        obtain ⟨w, e⟩ := mul_fin (a := (fin st qt rt wt : Ieee f)) (b := dy) trivial hdf
        have hp : (rnd f w (qt * val dy)).Finite ∧ (rnd f w (qt * val dy)).val ≤ -q0 := by
          rcases le_total 0 (val dy) with h | h
          · have := rnd_between (f := f) w f.zero_repr hdf.repr (mul_nonneg ht0 h)
              (by nlinarith)
            exact ⟨this.1, by linarith [this.2.1, this.2.2]⟩
          · have := rnd_between (f := f) w (q := qt * val dy) hdf.repr f.zero_repr (by nlinarith)
              (mul_nonpos_of_nonneg_of_nonpos ht0 h)
            exact ⟨this.1, by linarith [this.2.1, this.2.2]⟩
        change ((fin st qt rt wt : Ieee f) *. dy) = rnd f w (qt * val dy) at e
        rw [e]
        obtain ⟨w2, e2⟩ := add_fin (a := (fin s0 q0 r0 w0 : Ieee f)) (b := rnd f w (qt * val dy))
          trivial hp.1
        rw [e2]
        refine rnd_NotPos w2 ?_
        change q0 + (rnd f w (qt * val dy)).val ≤ 0
        linarith [hp.2]
      · simp only [if_true]
        obtain ⟨w, e⟩ := mulAdd_fin (a := (fin st qt rt wt : Ieee f)) (b := dy)
          (c := (fin s0 q0 r0 w0 : Ieee f)) trivial hdf trivial
        rw [e]
        exact rnd_NotPos w key

section
variable {N : Nat}

/-- Multilinear interpolation on a rectilinear grid as nested blends with weights in [0, 1] of stored
values. -/
theorem multilinearRectilinear_closed (P : Ieee f → Prop) (e : Evaluator) (he : e.Fits N) (fma : Bool)
    (hP : ∀ (t : Ieee f) (v : Fin 2 → Ieee f), WeightOk t → P (v 0) → P (v 1) → P (lerp fma t v))
    (grids : Fin N → List (Ieee f)) (vals : List (Ieee f))
    (hG : (Axes.rectilinear fun k => (grids k).map val).Valid 2 (vals.map val))
    (hgrid : ∀ k, ∀ a ∈ grids k, Finite a) (hvals : ∀ v ∈ vals, P v)
    (x : Fin N → Ieee f) (hx : ∀ k, Finite (x k))
    (hin : ∀ k, InRange (grids k).length (fun i => ((grids k).map val).getD i 0) (val (x k))) :
    ∃ r, multilinearRectilinearAt e fma grids vals x = .ok r ∧ P r := by
  have hlen : ∀ k, 2 ≤ (grids k).length := fun k => by
    have := hG.big k; simpa [Axes.size] using this
  have hnode : ∀ (k : Fin N) (i : Nat), i < (grids k).length →
      ((grids k).map val).getD i 0 = val ((grids k).getD i zero) := fun k i hi => by
    rw [List.getD_eq_getElem _ _ (by simpa using hi), List.getElem_map,
      List.getD_eq_getElem _ _ hi]
  have hincr : ∀ k, Incr (grids k).length (fun i => ((grids k).map val).getD i 0) := fun k => by
    have : Incr ((grids k).map val).length (fun i => ((grids k).map val).getD i 0) :=
      fun i hi => hG.increasing k i hi
    rwa [List.length_map] at this
  have hmem : ∀ (k : Fin N) (i : Nat) (_ : i < (grids k).length),
      Finite ((grids k).getD i zero) := fun k i hi => by
    rw [List.getD_eq_getElem _ _ hi]; exact hgrid k _ (List.getElem_mem hi)
  have hvlen : vals.length = ∏ k, (grids k).length := by
    have := hG.len; simpa [Axes.size] using this
  have hslice : IsSlice vals := by
    have := hG.slice; rw [isSlice_iff] at this ⊢; simpa using this
  have hacc : RectilinearAccepted 2 grids vals := by
    refine ⟨hslice, hvlen, hlen, fun k => ?_⟩
    have h2 := hlen k
    have h01 := hincr k 0 (by omega)
    simp only [hnode k 0 (by omega), hnode k (0 + 1) (by omega)] at h01
    have := (exactCompare f _ _ (hmem k 0 (by omega)) (hmem k (0 + 1) (by omega))).2 h01
    match hgk : grids k with
    | [] => rw [hgk] at h2; simp at h2
    | [_] => rw [hgk] at h2; simp at h2
    | a :: b :: rest =>
      rw [hgk] at this
      exact ⟨a, b, rest, rfl, this⟩
  refine ⟨_, by rw [multilinearRectilinearAt_eq e he fma grids vals hslice x, hacc.check le_rfl,
    Res.ok_bind], ?_⟩
  have hs := samples_valAt zero (fun k => (grids k).length) vals hvlen
  refine axisByAxis_mem P (fun k i => i = linCell (grids k) (x k) ∨ i = linCell (grids k) (x k) + 1)
    _ _ (fun k g hg => ?_) (fun loc hl => ?_)
  · have hb := linCell_bound (hlen k) (x k)
    obtain ⟨c1, c2, c3⟩ := float_linCell (exactCompare f) (hx k) (hlen k) (hgrid k) (hincr k)
    refine hP _ _ (weightOk (hmem k _ (by omega)) (hmem k _ (by omega)) (hx k) ?_ ?_)
      (hg _ (.inl rfl)) (hg _ (.inr rfl))
    · rw [← hnode k _ (by omega)]
      rcases c2 with c2 | c2
      · have := (hin k).1
        rw [c2]; exact this
      · exact c2
    · rw [← hnode k _ (by omega)]
      rcases c3 with c3 | c3
      · have := (hin k).2
        have e1 : linCell (grids k) (x k) + 1 = (grids k).length - 1 := by omega
        rw [e1]; exact this
      · exact c3
  · exact hvals _ (List.mem_of_getElem? (hs loc fun k => by
      have := linCell_bound (hlen k) (x k)
      show loc k < (grids k).length
      rcases hl k with h | h <;> omega))

end

end Ieee
end Interpn
