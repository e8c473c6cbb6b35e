import Verif.Lemmas.RoundingCubic
import Verif.Lemmas.RoundNum
import Verif.Props.Accuracy

/-! C69: accuracy of multicubic interpolation on rectilinear grids in rounded arithmetic. -/

set_option autoImplicit false
set_option linter.unusedSectionVars false

namespace Interpn
open FloatOps

section
attribute [local instance] exactOps
variable {T K : Type} [FloatOps T] [Field K] [LinearOrder K] [IsStrictOrderedRing K] [FloorRing K]
  {val : T → K} {fin : T → Prop} {u η Ω : K} {N : Nat}

/-- Multicubic interpolation of finite data at an observation in the range of a rectilinear grid:
the result computed in rounded arithmetic is finite and differs from the result of the same
evaluation in exact arithmetic by at most `((Λ + κ)^N - Λ^N) M`, where `M` bounds the values, `ρ` is
the largest ratio of the widths of adjacent cells, `Λ` is the amplification factor of C63, and
`κ = 1600 ρ u`. The number of nodes and the position of the grid do not enter. -/
theorem C69_rectilinear (h : Rounds val fin u η Ω) (hcmp : ExactCompare val fin)
    (hsign : ExactSign val fin) (hu : u ≤ 1 / 1000) (e : Evaluator) (he : e.Fits N) (fma : Bool)
    (grids : Fin N → List T) (vals : List T) (lin : Bool)
    (hG : (Axes.rectilinear fun k => (grids k).map val).Valid 4 (vals.map val))
    (hgrid : ∀ k, ∀ a ∈ grids k, fin a ∧ 2 * |val a| ≤ Ω) (M : K)
    (hvals : ∀ v ∈ vals, fin v ∧ |val v| ≤ M)
    (x : Fin N → T) (hx : ∀ k, fin (x k) ∧ 2 * |val (x k)| ≤ Ω)
    (hin : ∀ k, InRange (grids k).length (fun i => ((grids k).map val).getD i 0) (val (x k)))
    (ρ : K) (hρ : 1 ≤ ρ)
    (hmesh : ∀ k, MeshRatio (grids k).length (fun i => ((grids k).map val).getD i 0) ρ)
    (Λ κ : K) (hΛ : Λ = 1 + ρ ^ 2 / (2 * (1 + ρ))) (hκ : κ = 1600 * ρ * u)
    (hunder : η * (1 + ρ) ≤ u) (hunderM : η ≤ u * M) (hover1 : 64 * ρ ≤ Ω)
    (hover : 64 * ((Λ + κ) ^ (N - 1) * M * ρ) ≤ Ω) :
    ∃ r y, multicubicRectilinearAt e fma grids vals lin x = .ok r ∧ fin r ∧
      multicubicAt e fma (.rectilinear fun k => (grids k).map val) (vals.map val) lin
        (fun k => val (x k)) = .ok y ∧
      |val r - y| ≤ ((Λ + κ) ^ N - Λ ^ N) * M := by
  have hu0 := h.u_nonneg
  have hlen : ∀ k, 4 ≤ (grids k).length := fun k => by
    have := hG.big k; simpa [Axes.size] using this
  have hincr : ∀ k, Incr ((grids k).map val).length (fun i => ((grids k).map val).getD i 0) :=
    fun k i hi => hG.increasing k i hi
  have hincr' : ∀ k, Incr (grids k).length (fun i => ((grids k).map val).getD i 0) := fun k => by
    have := hincr k; rwa [List.length_map] at this
  have hnode : ∀ (k : Fin N) (i : Nat), i < (grids k).length →
      ((grids k).map val).getD i 0 = val ((grids k).getD i zero) := fun k i hi => by
    rw [List.getD_eq_getElem _ _ (by simpa using hi), List.getElem_map,
      List.getD_eq_getElem _ _ hi]
  have hmem : ∀ (k : Fin N) (i : Nat) (hi : i < (grids k).length),
      fin ((grids k).getD i zero) ∧ 2 * |val ((grids k).getD i zero)| ≤ Ω := fun k i hi => by
    rw [List.getD_eq_getElem _ _ hi]; exact hgrid k _ (List.getElem_mem hi)
  have hvlen : vals.length = ∏ k, (grids k).length := by
    have := hG.len; simpa [Axes.size] using this
  have hslice : IsSlice vals := by
    have := hG.slice; rw [isSlice_iff] at this ⊢; simpa using this
  have hacc : RectilinearAccepted 4 grids vals := by
    refine ⟨hslice, hvlen, hlen, fun k => ?_⟩
    have h2 := hlen k
    have h01 := hincr' k 0 (by omega)
    simp only [hnode k 0 (by omega), hnode k (0 + 1) (by omega)] at h01
    have := (hcmp _ _ (hmem k 0 (by omega)).1 (hmem k (0 + 1) (by omega)).1).2 h01
    match hgk : grids k with
    | [] => rw [hgk] at h2; simp at h2
    | [_] => rw [hgk] at h2; simp at h2
    | a :: b :: rest =>
      rw [hgk] at this
      exact ⟨a, b, rest, rfl, this⟩
  -- the same cells are found
  have hbelow : ∀ k, cellsBelow (grids k) (x k) = cellsBelow ((grids k).map val) (val (x k)) :=
    fun k => float_cellsBelow hcmp (hx k).1 (fun a ha => (hgrid k a ha).1) (hincr' k)
  have hb := fun k i hi => (cellsBelow_exact (hincr k) (val (x k)) i hi)
  simp only [List.length_map, ← hbelow] at hb
  have hcell : ∀ k, InCell (grids k).length (fun i => ((grids k).map val).getD i 0) (val (x k))
      (linCell ((grids k).map val) (val (x k))) := fun k => by
    have := rectilinear_inCell (by rw [List.length_map]; have := hlen k; omega) (hincr k)
      (val (x k))
    rwa [List.length_map] at this
  have hshape : ∀ k, CellShape (fun q : Fin 4 => val ((grids k).getD
      (cubCell (grids k) (x k) + q.val) zero)) (val (x k)) ρ 1
      (satRectilinear (grids k).length (cellsBelow (grids k) (x k))) := fun k => by
    have := cellShape_of_inRange (hlen k) (hincr' k) (hmesh k) (hin k)
      (cellsBelow_le (grids k) (x k)) (hb k)
    have e : (fun q : Fin 4 => val ((grids k).getD (cubCell (grids k) (x k) + q.val) zero)) =
        fun q : Fin 4 => ((grids k).map val).getD
          (min (cellsBelow (grids k) (x k) - 2) ((grids k).length - 4) + q.val) 0 := by
      funext q
      have := cubCell_bound (hlen k) (x k)
      have hq := q.isLt
      rw [hnode k _ (by unfold cubCell at this; omega)]
      rfl
    rw [e]
    exact this
  -- the data
  set g := valAt zero (fun k => (grids k).length) vals with hgdef
  have hs := samples_valAt zero (fun k => (grids k).length) vals hvlen
  rw [← hgdef] at hs
  have hgM : ∀ loc : Fin N → Nat, (∀ k, loc k < (grids k).length) →
      fin (g loc) ∧ |val (g loc)| ≤ M := fun loc hl =>
    hvals _ (List.mem_of_getElem? (hs loc hl))
  have hM : 0 ≤ M := (abs_nonneg _).trans
    (hgM (fun _ => 0) fun k => by have := hlen k; omega).2
  have hsize : (Axes.rectilinear fun k => (grids k).map val).size = fun k => (grids k).length := by
    funext k; simp [Axes.size]
  have hs' : Samples (Axes.rectilinear fun k => (grids k).map val).size (vals.map val)
      (fun loc => val (g loc)) := by
    rw [hsize]
    intro loc hl
    rw [List.getElem?_map, hs loc hl]; rfl
  have hex := multicubicAt_eq e he fma (.rectilinear fun k => (grids k).map val) (vals.map val) lin
    hG _ hs' (fun k => val (x k)) trivial (fun k => linCell ((grids k).map val) (val (x k)))
    (fun k => by rw [hsize]; exact hcell k)
  rw [hsize] at hex
  -- scales
  have hρ0 : 0 < ρ := lt_of_lt_of_le one_pos hρ
  have hΛ1 : 1 ≤ Λ := by rw [hΛ]; have : 0 ≤ ρ ^ 2 / (2 * (1 + ρ)) := by positivity
                         linarith
  have hκ0 : 0 ≤ κ := by rw [hκ]; positivity
  have hΛκ : 1 ≤ Λ + κ := by linarith
  have key := rounds_axisByAxis (fin := fin) (κ := κ) (M := M) (zero_le_one.trans hΛ1)
    (fun k i => i < (grids k).length)
    (fun k => cubRectRule fma (e.fmaBdry fma) (e.fmaBdry fma) lin (grids k) (x k))
    (fun k f => cubicPiece (grids k).length (fun i => ((grids k).map val).getD i 0) f lin
      (linCell ((grids k).map val) (val (x k))) (val (x k))) g ?_ ?_ ?_ hgM
  · refine ⟨_, _, ?_, key.1, hex, key.2.2⟩
    rw [multicubicRectilinearAt_eq e he fma grids vals lin hslice x, hacc.check (by omega),
      Res.ok_bind]
  · intro k f f' ε hf
    rw [hΛ]
    exact cubicPiece_lip (hincr' k) (hlen k) lin (hcell k) (hin k) (hmesh k)
      fun j hj => hf j hj.1
  · intro k B f hf
    have := cubicPiece_lip (hincr' k) (hlen k) lin (hcell k) (hin k) (hmesh k) (f := f)
      (f' := fun _ => 0) (ε := B) fun j hj => by rw [sub_zero]; exact hf j hj.1
    have h0 : cubicPiece (grids k).length (fun i => ((grids k).map val).getD i 0) (fun _ => 0) lin
        (linCell ((grids k).map val) (val (x k))) (val (x k)) = 0 :=
      cubicPiece_affine (hincr' k) (hlen k) (hcell k).1 lin (φ := fun _ => (0 : K))
        ⟨0, 0, fun z => by ring⟩
    rw [h0, sub_zero, ← hΛ] at this
    exact this
  · intro k j f hj hf
    have hpow : M ≤ (Λ + κ) ^ j * M := le_mul_of_one_le_left hM (one_le_pow₀ hΛκ)
    have hpow' : (Λ + κ) ^ j * M ≤ (Λ + κ) ^ (N - 1) * M := by
      gcongr
      omega
    have hbd := cubCell_bound (hlen k) (x k)
    have := apx_rectilinear h hu hsign (B := (Λ + κ) ^ j * M) (ρ := ρ) (r := 1)
      ⟨hM.trans hpow, hρ, le_rfl, hunder, hunderM.trans (by gcongr), hover1, by linarith, by
        rw [one_pow, one_mul]
        refine le_trans ?_ hover
        gcongr⟩
      fma (e.fmaBdry fma) (e.fmaBdry fma) lin
      (v := fun p => f (cubCell (grids k) (x k) + p.val))
      (fun p => hf _ (by have := p.isLt; omega)) (fun p => hmem k _ (by have := p.isLt; omega))
      (hx k) (hshape k)
    have hrule := cubRectRule_exact false false false lin (by rw [List.length_map]; exact hlen k)
      (hincr k) (val (x k)) (fun i => val (f i))
    rw [List.length_map] at hrule
    have hexact : cubRectRule false false false lin ((grids k).map val) (val (x k))
        (fun i => val (f i)) = cubicInnerRectilinear false false false
          (fun p : Fin 4 => val (f (cubCell (grids k) (x k) + p.val)))
          (fun p : Fin 4 => val ((grids k).getD (cubCell (grids k) (x k) + p.val) zero))
          (val (x k)) (satRectilinear (grids k).length (cellsBelow (grids k) (x k))) lin := by
      have ec : cubCell ((grids k).map val) (val (x k)) = cubCell (grids k) (x k) := by
        unfold cubCell; rw [hbelow k, List.length_map]
      unfold cubRectRule
      rw [ec, ← hbelow k, List.length_map]
      congr 1
      funext p
      exact hnode k _ (by have := p.isLt; omega)
    rw [hexact] at hrule
    rw [hrule] at this
    refine ⟨this.1, this.2.trans ?_⟩
    have hB : 0 ≤ (Λ + κ) ^ j * M := hM.trans hpow
    rw [hκ, one_pow, one_mul]
    have : 0 ≤ u * ((Λ + 1600 * ρ * u) ^ j * M * ρ) := by
      rw [hκ] at hB; positivity
    linarith

/-- The bound of `C69_rectilinear` is at most `2 N κ Λ^N M`, as long as `2 N κ ≤ 1`: a fixed multiple
of the unit roundoff, relative to the size of the data. -/
theorem C69_simple_bound (Λ κ M : K) (hΛ : 1 ≤ Λ) (hκ : 0 ≤ κ) (hM : 0 ≤ M) (hN : 2 * N * κ ≤ 1) :
    ((Λ + κ) ^ N - Λ ^ N) * M ≤ 2 * N * κ * Λ ^ N * M := by
  have hΛ0 : 0 < Λ := lt_of_lt_of_le one_pos hΛ
  have hle : Λ + κ ≤ Λ * (1 + κ) := by nlinarith
  have h1 : (Λ + κ) ^ N ≤ Λ ^ N * (1 + κ) ^ N := by
    rw [← mul_pow]
    exact pow_le_pow_left₀ (by positivity) hle N
  have h2 := one_add_pow_le hκ N hN
  have h3 : Λ ^ N * (1 + κ) ^ N ≤ Λ ^ N * (1 + 2 * N * κ) := by gcongr
  refine mul_le_mul_of_nonneg_right ?_ hM
  linarith

end

/-! ### Concrete case -/

section Examples
open ExtNum

/-- Floats with 53 significant bits. -/
@[reducible] def cubicOps : FloatOps (ExtNum ℚ) := bitOps 53 1023
attribute [local instance] cubicOps

/-- A 4×5 grid of floats whose adjacent cells differ in width by up to a factor of 2. -/
def exCubicGrids : Fin 2 → List (ExtNum ℚ) :=
  ![[fin 0, fin 1, fin 3, fin 4], [fin 0, fin (1 / 2), fin 1, fin 2, fin 3]]

/-- Values on `exCubicGrids`. -/
def exCubicVals : List (ExtNum ℚ) :=
  [fin 2, fin 6, fin (-7), fin 16, fin 10, fin 3, fin 5, fin 1, fin (-2), fin 8,
    fin 0, fin 7, fin (1 / 3 * 3), fin 4, fin (-9), fin 6, fin 2, fin (-1), fin 12, fin (5 / 2)]

/-- Hypotheses of `C69_rectilinear` and `C69_simple_bound` are satisfied by 53-bit floats: the result
is correct to `10^-9`. -/
example : ∃ r y, multicubicRectilinearAt .flat true exCubicGrids exCubicVals true
      ![fin (7 / 4), fin (5 / 2)] = .ok r ∧
    multicubicAt .flat true (.rectilinear fun k => (exCubicGrids k).map value)
      (exCubicVals.map value) true ![7 / 4, 5 / 2] = .ok y ∧ |value r - y| ≤ 1 / 10 ^ 9 := by
  have H := float_exact (p := 53) (e := 1023) (by norm_num)
  obtain ⟨r, y, h1, -, h2, h3⟩ := C69_rectilinear (float_rounds (p := 53) (e := 1023) (by norm_num))
    (float_compare 53 1023) ⟨H.one, H.neg⟩
    (by norm_num) .flat (by decide : (0 : Nat) < 2) true exCubicGrids exCubicVals true
    (valid_of_check (by decide +kernel))
    (by decide +kernel) 16 (by decide +kernel) ![fin (7 / 4), fin (5 / 2)] (by decide +kernel)
    (by unfold InRange; decide +kernel) 2 (by norm_num)
    (by
      intro k i hi
      fin_cases k
      · have : i < 2 := by have : i + 2 < 4 := hi; omega
        interval_cases i <;> decide +kernel
      · have : i < 3 := by have : i + 2 < 5 := hi; omega
        interval_cases i <;> decide +kernel)
    _ _ rfl rfl (by norm_num) (by norm_num) (by decide +kernel) (by decide +kernel)
  refine ⟨r, y, h1, ?_, (h3.trans (C69_simple_bound (N := 2) _ _ _ (by norm_num) (by norm_num)
    (by norm_num) (by norm_num))).trans (by norm_num)⟩
  rw [← h2]
  congr 1
  funext k
  fin_cases k <;> rfl

end Examples

end Interpn
