import Verif.Props.IeeeCubic
import Verif.Lemmas.IeeeExamples

/-! C103: `linearize_extrapolation` has no effect on observations inside the grid. -/

set_option autoImplicit false
set_option exponentiation.threshold 1100

namespace Interpn
open FloatOps Ieee

/-! ### Auxiliary facts -/

section
variable {T : Type}

private theorem bisect_pos (s : List T) (pred : T → Bool) (size base calls : Nat) :
    base ≤ (bisectLoop s pred size base calls).1 := by
  induction size using Nat.strong_induction_on generalizing base calls with
  | _ size ih =>
    unfold bisectLoop
    split
    · refine le_trans ?_ (ih (size - size / 2) (by omega) _ _)
      split <;> omega
    · exact le_rfl

/-- The bisection on any list, sorted or not: if the first entry passes the test the result is
not zero, if the last entry fails it the result is not the length. -/
private theorem partitionPoint_ends (s : List T) (pred : T → Bool) {a b : T} (ha : s.head? = some a)
    (hb : s.getLast? = some b) (hpa : pred a = true) (hpb : pred b = false) :
    partitionPoint s pred ≠ 0 ∧ partitionPoint s pred ≠ s.length := by
  have hne : s.length ≠ 0 := by
    intro h; rw [List.length_eq_zero_iff.1 h] at ha; simp at ha
  have hr := bisectLoop_range s pred s.length 0 0 (by omega) (by omega)
  unfold partitionPoint partitionPointCounted
  rw [if_neg hne]
  simp only
  set r := (bisectLoop s pred s.length 0 0).1
  rw [List.getElem?_eq_getElem hr, Option.any_some]
  constructor
  · rcases Nat.eq_zero_or_pos r with h0 | h0
    · have : s[r] = a := by
        rw [List.head?_eq_getElem?, List.getElem?_eq_getElem (by omega)] at ha
        simp only [h0]; exact Option.some.inj ha
      rw [this, hpa]; simp
    · omega
  · by_cases h1 : r + 1 = s.length
    · have : s[r] = b := by
        rw [List.getLast?_eq_getElem?, List.getElem?_eq_getElem (by omega)] at hb
        have e : s.length - 1 = r := by omega
        simp only [e] at hb; exact Option.some.inj hb
      rw [this, hpb]; simp; omega
    · split <;> omega

end

section
variable {T : Type} [FloatOps T] {N : Nat}

omit [FloatOps T] in
private theorem axisLoop_lin {A : Type} {d : A} {ax : Nat → Res A}
    {out out' : (Fin N → A) → T} 
    (h : ∀ a : Fin N → A, (∀ k : Fin N, ax k = .ok (a k)) → out a = out' a) :
    (axisLoop N d ax >>= fun a => Res.ok (out a)) = (axisLoop N d ax >>= fun a => Res.ok (out' a)) := by
  rcases axisLoop_cases N d ax with ⟨a, ha, hl⟩ | ⟨i, e, _, _, hl⟩ | ⟨i, _, _, hl⟩
  · rw [hl, Res.ok_bind, Res.ok_bind, h a ha]
  · rw [hl]; rfl
  · rw [hl]; rfl

/-! ### Bit for bit, in any arithmetic -/

/-- Rectilinear grids, any arithmetic: an observation above the first and not above the last node
of every axis gets the same result with and without `linearize_extrapolation`. -/
theorem C103_rectilinear (e : Evaluator) (he : e.Fits N) (fma : Bool) (grids : Fin N → List T)
    (vals : List T) (hs : IsSlice vals) (lin lin' : Bool) (x : Fin N → T)
    (hlow : ∀ k, ∃ a, (grids k).head? = some a ∧ (a <. x k) = true)
    (hhigh : ∀ k, ∃ b, (grids k).getLast? = some b ∧ (b <. x k) = false) :
    multicubicRectilinearAt e fma grids vals lin x =
      multicubicRectilinearAt e fma grids vals lin' x := by
  rw [multicubicRectilinearAt_eq e he fma grids vals lin hs x,
    multicubicRectilinearAt_eq e he fma grids vals lin' hs x]
  congr 1; funext _; congr 2; funext k f
  obtain ⟨a, ha, hxa⟩ := hlow k
  obtain ⟨b, hb, hxb⟩ := hhigh k
  obtain ⟨h1, h2⟩ := partitionPoint_ends (grids k) (fun y => y <. x k) ha hb hxa hxb
  unfold cubRectRule
  have : satRectilinear (grids k).length (cellsBelow (grids k) (x k)) = .insideLow ∨
      satRectilinear (grids k).length (cellsBelow (grids k) (x k)) = .insideHigh ∨
      satRectilinear (grids k).length (cellsBelow (grids k) (x k)) = .none := by
    unfold satRectilinear cellsBelow
    rw [if_neg h1, if_neg h2]
    split
    · exact .inl rfl
    · split
      · exact .inr (.inl rfl)
      · exact .inr (.inr rfl)
  rcases this with h | h | h <;> rw [h] <;> rfl

/-- Regular grids, any arithmetic: the flag has no effect if the computed cell number
`floor((x - start) / step)` is that of one of the cells, on every axis. -/
theorem C103_regular (hT : TotalOfUsize T) (e : Evaluator) (he : e.Fits N) (fma : Bool)
    (dims : Fin N → Nat) (starts steps : Fin N → T) (vals : List T) (hs : IsSlice vals)
    (lin lin' : Bool) (x : Fin N → T)
    (hcell : ∀ k, ∃ z : Int, toIsize (floor ((x k -. starts k) /. steps k)) = some z ∧ 0 ≤ z ∧
      z + 2 ≤ dims k) :
    multicubicRegularAt e fma dims starts steps vals lin x =
      multicubicRegularAt e fma dims starts steps vals lin' x := by
  rw [multicubicRegularAt_eq e he fma hT dims starts steps vals lin hs x,
    multicubicRegularAt_eq e he fma hT dims starts steps vals lin' hs x]
  congr 1; funext _
  apply axisLoop_lin
  intro a ha
  congr 1; funext k f
  have ha' : cubRegAxis (dims k) (starts k) (steps k) (x k) = .ok (a k) := by
    have := ha k; simpa using this
  obtain ⟨z, hz, h0, h2⟩ := hcell k
  unfold cubRegAxis rawCell at ha'
  rw [hz] at ha'
  simp only at ha'
  split at ha'
  · cases ha'
  · split at ha'
    · cases ha'
    · have hsat : (a k).2.1 = satRegular (dims k) z := by rw [← Res.ok.inj ha']
      unfold cubRegRule
      rw [hsat]
      have : satRegular (dims k) z = .insideLow ∨ satRegular (dims k) z = .insideHigh ∨
          satRegular (dims k) z = .none := by
        unfold satRegular
        rw [if_neg (by omega)]
        split
        · exact .inl rfl
        · rw [if_neg (by omega)]
          split
          · exact .inr (.inl rfl)
          · exact .inr (.inr rfl)
      rcases this with h | h | h <;> rw [h] <;> rfl

end

/-! ### Exact arithmetic -/

section
variable {N : Nat} {K : Type} [Field K] [LinearOrder K] [IsStrictOrderedRing K] [FloorRing K]
attribute [local instance] exactOps

/-- Exact arithmetic, both kinds of grid: no effect for any observation inside the grid, the end
nodes included. -/
theorem C103_exact (e : Evaluator) (he : e.Fits N) (fma : Bool) (G : Axes K N) (vals : List K)
    (hG : G.Valid 4 vals) (lin lin' : Bool) (x : Fin N → K)
    (hin : ∀ k, InRange (G.size k) (G.node k) (x k)) :
    multicubicAt e fma G vals lin x = multicubicAt e fma G vals lin' x := by
  obtain ⟨c, hc⟩ := hG.cells (by omega) x
  have hg := samples_valAt (0 : K) _ _ hG.len
  have hx := hG.inRange_fits (by omega) hin (-(2 ^ 63) + 1) (by decide)
  rw [multicubicAt_eq e he fma G vals lin hG _ hg x hx c hc,
    multicubicAt_eq e he fma G vals lin' hG _ hg x hx c hc]
  congr 2; funext k f
  unfold cubicPiece
  have h1 := (hin k).1
  have h2 := (hin k).2
  rw [if_neg (by simp [not_lt.2 h1]), if_neg (by simp [not_lt.2 h2]),
    if_neg (by simp [not_lt.2 h1]), if_neg (by simp [not_lt.2 h2])]

end

/-! ### IEEE 754 arithmetic -/

section
variable {N : Nat} {f : Format}

private theorem cell_computed (hu : f.unitRoundoff ≤ 1 / 8) (hη : f.underflow ≤ f.unitRoundoff / 2)
    {dim : Nat} (h2 : 2 ≤ dim) (hp : f.p ≤ 53) (hdim : dim ≤ 2 ^ f.p) {x s st : Ieee f} (hx : Finite x) (hs : Finite s)
    (hst : Finite st) (hpos : 0 < val st) (hΩ : |val x - val s| ≤ f.omega) (hlow : val s ≤ val x)
    (hhigh : (val x - val s) * (1 + 4 * f.unitRoundoff) ≤ (dim - 1 : Nat) * val st) :
    ∃ z : Int, FloatOps.toIsize (FloatOps.floor ((x -. s) /. st)) = some z ∧ 0 ≤ z ∧ z + 2 ≤ dim := by
  have hR := rounds (f := f)
  have hu0 : 0 < f.unitRoundoff := by unfold Format.unitRoundoff; positivity
  set u := f.unitRoundoff with hudef
  set n : ℚ := ((dim - 1 : Nat) : ℚ) with hn
  have hn1 : (1 : ℚ) ≤ n := by rw [hn]; exact_mod_cast (by omega : 1 ≤ dim - 1)
  have hd := hR.sub x s hx hs hΩ
  have hd0 : 0 ≤ val x - val s := by linarith
  rw [abs_of_nonneg hd0] at hd
  have hb := abs_le.1 hd.2
  set d := val (x -. s) with hdd
  have hdlo : 0 ≤ d := by nlinarith
  have hdhi : d ≤ (val x - val s) * (1 + u) := by linarith
  -- the exact quotient of the computed difference
  have hq : d / val st ≤ n * (1 + u) / (1 + 4 * u) := by
    rw [div_le_div_iff₀ hpos (by linarith)]
    have := mul_le_mul_of_nonneg_right hdhi (show 0 ≤ 1 + 4 * u by linarith)
    have h3 := mul_le_mul_of_nonneg_right hhigh (show 0 ≤ 1 + u by linarith)
    nlinarith
  have hq0 : 0 ≤ d / val st := div_nonneg hdlo hpos.le
  have hlt : n * (1 + u) / (1 + 4 * u) * (1 + u) + f.underflow < n := by
    have h4 : 0 < 1 + 4 * u := by linarith
    have e : n * (1 + u) / (1 + 4 * u) * (1 + u) = n * ((1 + u) ^ 2 / (1 + 4 * u)) := by ring
    have h5 : (1 + u) ^ 2 / (1 + 4 * u) ≤ 1 - u := by
      rw [div_le_iff₀ h4]; nlinarith
    have h6 := mul_le_mul_of_nonneg_left h5 (show 0 ≤ n by linarith)
    rw [e]
    nlinarith
  have hle : d / val st ≤ n := by
    refine hq.trans ?_
    have h4 : 0 < 1 + 4 * u := by linarith
    rw [div_le_iff₀ h4]
    nlinarith
  obtain ⟨nf, hnf, hnfin, hnv⟩ := (exactWhole (f := f) (n := dim) (by omega)).ofUsize (dim - 1) (by omega)
  have hz := zero_eq (f := f)
  have hst' := (staysBetween (f := f)).div (x -. s) st zero nf hd.1 hst hz.1 hnfin hpos.ne'
    (by rw [hz.2]; exact hq0) (by rw [hnv]; exact hle)
  have hr := hR.div (x -. s) st hd.1 hst hpos.ne' (by
    rw [abs_of_nonneg hq0]
    refine hle.trans ?_
    have := hnfin.repr.le_omega
    rw [hnv] at this
    exact (le_abs_self _).trans this)
  have hr2 := abs_le.1 hr.2
  rw [abs_of_nonneg hq0] at hr2
  set q := val ((x -. s) /. st) with hqd
  have hqlt : q < n := by
    have := mul_le_mul_of_nonneg_right hq (show 0 ≤ 1 + u by linarith)
    nlinarith [hr2.2]
  have hqge : 0 ≤ q := by have := hst'.2.1; rwa [hz.2] at this
  have f0 : 0 ≤ ⌊q⌋ := Int.floor_nonneg.2 hqge
  have f1 : ⌊q⌋ < ((dim - 1 : Nat) : Int) := by rw [Int.floor_lt]; simpa [hn] using hqlt
  have hpow : 2 ^ f.p ≤ 2 ^ 53 := Nat.pow_le_pow_right (by norm_num) hp
  refine ⟨⌊q⌋, (exactWhole (f := f) (n := dim) (by omega)).toIsize _ hst'.1 ?_ ?_, f0, by omega⟩
  · simp only [isizeMin]; rw [← hqd]; omega
  · simp only [isizeMax]; rw [← hqd]; omega

private theorem ends_compared {grid : List (Ieee f)} (h1 : 1 ≤ grid.length)
    (hgrid : ∀ a ∈ grid, Finite a) {x : Ieee f} (hx : Finite x)
    (hlow : (grid.map val).getD 0 0 < val x) (hhigh : val x ≤ (grid.map val).getD (grid.length - 1) 0) :
    (∃ a, grid.head? = some a ∧ (a <. x) = true) ∧
      ∃ b, grid.getLast? = some b ∧ (b <. x) = false := by
  have g : ∀ i (hi : i < grid.length), (grid.map val).getD i 0 = val grid[i] := by
    intro i hi
    rw [List.getD_eq_getElem?_getD, List.getElem?_map, List.getElem?_eq_getElem hi]; rfl
  rw [g 0 (by omega)] at hlow
  rw [g _ (by omega)] at hhigh
  refine ⟨⟨grid[0], ?_, ?_⟩, ⟨grid[grid.length - 1], ?_, ?_⟩⟩
  · rw [List.head?_eq_getElem?, List.getElem?_eq_getElem]
  · exact (exactCompare (f := f) _ _ (hgrid _ (List.getElem_mem _)) hx).2 hlow
  · rw [List.getLast?_eq_getElem?, List.getElem?_eq_getElem]
  · rw [Bool.eq_false_iff]
    intro h
    exact absurd ((exactCompare (f := f) _ _ (hgrid _ (List.getElem_mem _)) hx).1 h) (not_lt.2 hhigh)

private theorem near_same {a b y A : ℚ} (h1 : |a - y| ≤ A) (h2 : |b - y| ≤ A) : |a - b| ≤ 2 * A := by
  have e : a - b = (a - y) - (b - y) := by ring
  rw [e]
  exact (abs_sub _ _).trans (by linarith)

end

section
variable {N : Nat}

/-- Rectilinear grids, `f64`, bit for bit: every observation above the first and at most at the
last node of every axis. -/
theorem C103_rectilinear_f64 (e : Evaluator) (he : e.Fits N) (fma : Bool) (grids : Fin N → List F64)
    (vals : List F64) (hs : IsSlice vals) (lin lin' : Bool) (x : Fin N → F64)
    (hlen : ∀ k, 1 ≤ (grids k).length) (hgrid : ∀ k, ∀ a ∈ grids k, Finite a)
    (hx : ∀ k, Finite (x k)) (hlow : ∀ k, ((grids k).map val).getD 0 0 < val (x k))
    (hhigh : ∀ k, val (x k) ≤ ((grids k).map val).getD ((grids k).length - 1) 0) :
    multicubicRectilinearAt e fma grids vals lin x =
      multicubicRectilinearAt e fma grids vals lin' x :=
  C103_rectilinear e he fma grids vals hs lin lin' x
    (fun k => (ends_compared (hlen k) (hgrid k) (hx k) (hlow k) (hhigh k)).1)
    (fun k => (ends_compared (hlen k) (hgrid k) (hx k) (hlow k) (hhigh k)).2)

/-- Regular grids, `f64`, bit for bit: every observation from the first node up to the last node,
less four units of rounding. -/
theorem C103_regular_f64 (e : Evaluator) (he : e.Fits N) (fma : Bool) (dims : Fin N → Nat)
    (hdims : ∀ k, 2 ≤ dims k ∧ dims k ≤ 2 ^ 53) (starts steps : Fin N → F64) (vals : List F64)
    (hs : IsSlice vals) (lin lin' : Bool) (x : Fin N → F64)
    (hfin : ∀ k, Finite (starts k) ∧ Finite (steps k) ∧ Finite (x k)) (hpos : ∀ k, 0 < val (steps k))
    (hsmall : ∀ k, |val (starts k)| ≤ 2 ^ 1022 ∧ |val (x k)| ≤ 2 ^ 1022)
    (hlow : ∀ k, val (starts k) ≤ val (x k))
    (hhigh : ∀ k, (val (x k) - val (starts k)) * (1 + 1 / 2 ^ 51) ≤
      (dims k - 1 : Nat) * val (steps k)) :
    multicubicRegularAt e fma dims starts steps vals lin x =
      multicubicRegularAt e fma dims starts steps vals lin' x := by
  have hΩ := binary64_Ω
  refine C103_regular (totalOfUsize _) e he fma dims starts steps vals hs lin lin' x fun k => ?_
  refine cell_computed (f := Format.binary64) (by rw [binary64_u]; norm_num)
    (by rw [binary64_u, binary64_η]; norm_num) (hdims k).1 (by decide) (hdims k).2 (hfin k).2.2 (hfin k).1
    (hfin k).2.1 (hpos k) ?_ (hlow k) ?_
  · have := abs_sub (val (x k)) (val (starts k))
    exact le_trans (by linarith [(hsmall k).1, (hsmall k).2]) hΩ
  · rw [binary64_u]
    have := hhigh k
    norm_num at this ⊢
    linarith

/-- Rectilinear grids, `f64`: for every observation in the closed range of the grid the results with
and without the flag differ by rounding errors only. -/
theorem C103_rectilinear_near_f64 (e : Evaluator) (he : e.Fits N) (hN8 : N ≤ 8) (fma : Bool)
    (grids : Fin N → List F64) (vals : List F64) (lin lin' : Bool)
    (hG : (Axes.rectilinear fun k => (grids k).map val).Valid 4 (vals.map val))
    (hgrid : ∀ k, ∀ a ∈ grids k, Finite a ∧ |val a| ≤ 2 ^ 1022)
    (M : ℚ) (hM : M ≤ 2 ^ 700) (hM1 : 1 / 2 ^ 1022 ≤ M)
    (hvals : ∀ v ∈ vals, Finite v ∧ |val v| ≤ M) (x : Fin N → F64) (hx : ∀ k, Finite (x k))
    (hin : ∀ k, InRange (grids k).length (fun i => ((grids k).map val).getD i 0) (val (x k)))
    (ρ : ℚ) (hρ : 1 ≤ ρ) (hρ2 : ρ ≤ 2 ^ 30)
    (hmesh : ∀ k, MeshRatio (grids k).length (fun i => ((grids k).map val).getD i 0) ρ) :
    ∃ r r', multicubicRectilinearAt e fma grids vals lin x = .ok r ∧
      multicubicRectilinearAt e fma grids vals lin' x = .ok r' ∧ Finite r ∧ Finite r' ∧
      |val r - val r'| ≤
        2 * (3200 * N * ρ * (1 / 2 ^ 53) * (1 + ρ ^ 2 / (2 * (1 + ρ))) ^ N * M) := by
  obtain ⟨r, y, h1, h2, h3, h4⟩ := C82_rectilinear_f64 e he hN8 fma grids vals lin hG hgrid M hM hM1
    hvals x hx hin ρ hρ hρ2 hmesh
  obtain ⟨r', y', h1', h2', h3', h4'⟩ := C82_rectilinear_f64 e he hN8 fma grids vals lin' hG hgrid
    M hM hM1 hvals x hx hin ρ hρ hρ2 hmesh
  have : y' = y := by
    have := (C103_exact e he fma _ _ hG lin lin' (fun k => val (x k)) (fun k => by
      have := hin k
      rw [← List.length_map (f := val)] at this
      exact this)).symm.trans h3
    rw [h3'] at this
    exact Res.ok.inj this
  subst this
  exact ⟨r, r', h1, h1', h2, h2', near_same h4 h4'⟩

/-- Regular grids, `f64`: the same. -/
theorem C103_regular_near_f64 (e : Evaluator) (he : e.Fits N) (hN8 : N ≤ 8) (fma : Bool) (κ : ℚ)
    (hκ : 0 ≤ κ) (hN : 4200 * N * (1 + κ) ≤ 2 ^ 53)
    (dims : Fin N → Nat) (starts steps : Fin N → F64) (vals : List F64) (lin lin' : Bool)
    (hG : (Axes.regular dims (fun k => val (starts k)) fun k => val (steps k)).Valid 4
      (vals.map val))
    (hfin : ∀ k, Finite (starts k) ∧ Finite (steps k)) (hnormal : ∀ k, 1 / 2 ^ 1022 ≤ val (steps k))
    (hnodes : ∀ k, |val (starts k)| ≤ κ * val (steps k) ∧
      |val (starts k) + val (steps k) * ((dims k - 1 : Nat) : ℚ)| ≤ κ * val (steps k))
    (hlarge : ∀ k, κ * val (steps k) ≤ 2 ^ 1020)
    (M : ℚ) (hM : M ≤ 2 ^ 1000) (hM1 : 1 / 2 ^ 1022 ≤ M)
    (hvals : ∀ v ∈ vals, Finite v ∧ |val v| ≤ M) (x : Fin N → F64) (hx : ∀ k, Finite (x k))
    (hin : ∀ k, InRange (dims k) (fun i => val (starts k) + val (steps k) * (i : ℚ)) (val (x k))) :
    ∃ r r', multicubicRegularAt e fma dims starts steps vals lin x = .ok r ∧
      multicubicRegularAt e fma dims starts steps vals lin' x = .ok r' ∧ Finite r ∧ Finite r' ∧
      |val r - val r'| ≤ 2 * (4200 * N * (1 + κ) * (1 / 2 ^ 53) * (5 / 4) ^ N * M) := by
  obtain ⟨r, y, h1, h2, h3, h4⟩ := C82_regular_f64 e he hN8 fma κ hκ hN dims starts steps vals lin hG
    hfin hnormal hnodes hlarge M hM hM1 hvals x hx hin
  obtain ⟨r', y', h1', h2', h3', h4'⟩ := C82_regular_f64 e he hN8 fma κ hκ hN dims starts steps vals
    lin' hG hfin hnormal hnodes hlarge M hM hM1 hvals x hx hin
  have : y' = y := by
    have := (C103_exact e he fma _ _ hG lin lin' (fun k => val (x k)) hin).symm.trans h3
    rw [h3'] at this
    exact Res.ok.inj this
  subst this
  exact ⟨r, r', h1, h1', h2, h2', near_same h4 h4'⟩

end

section
variable {N : Nat}

/-- Rectilinear grids, `f32`, bit for bit: every observation above the first and at most at the
last node of every axis. -/
theorem C103_rectilinear_f32 (e : Evaluator) (he : e.Fits N) (fma : Bool) (grids : Fin N → List F32)
    (vals : List F32) (hs : IsSlice vals) (lin lin' : Bool) (x : Fin N → F32)
    (hlen : ∀ k, 1 ≤ (grids k).length) (hgrid : ∀ k, ∀ a ∈ grids k, Finite a)
    (hx : ∀ k, Finite (x k)) (hlow : ∀ k, ((grids k).map val).getD 0 0 < val (x k))
    (hhigh : ∀ k, val (x k) ≤ ((grids k).map val).getD ((grids k).length - 1) 0) :
    multicubicRectilinearAt e fma grids vals lin x =
      multicubicRectilinearAt e fma grids vals lin' x :=
  C103_rectilinear e he fma grids vals hs lin lin' x
    (fun k => (ends_compared (hlen k) (hgrid k) (hx k) (hlow k) (hhigh k)).1)
    (fun k => (ends_compared (hlen k) (hgrid k) (hx k) (hlow k) (hhigh k)).2)

/-- Regular grids, `f32`, bit for bit: every observation from the first node up to the last node,
less four units of rounding. -/
theorem C103_regular_f32 (e : Evaluator) (he : e.Fits N) (fma : Bool) (dims : Fin N → Nat)
    (hdims : ∀ k, 2 ≤ dims k ∧ dims k ≤ 2 ^ 24) (starts steps : Fin N → F32) (vals : List F32)
    (hs : IsSlice vals) (lin lin' : Bool) (x : Fin N → F32)
    (hfin : ∀ k, Finite (starts k) ∧ Finite (steps k) ∧ Finite (x k)) (hpos : ∀ k, 0 < val (steps k))
    (hsmall : ∀ k, |val (starts k)| ≤ 2 ^ 126 ∧ |val (x k)| ≤ 2 ^ 126)
    (hlow : ∀ k, val (starts k) ≤ val (x k))
    (hhigh : ∀ k, (val (x k) - val (starts k)) * (1 + 1 / 2 ^ 22) ≤
      (dims k - 1 : Nat) * val (steps k)) :
    multicubicRegularAt e fma dims starts steps vals lin x =
      multicubicRegularAt e fma dims starts steps vals lin' x := by
  have hΩ := binary32_Ω
  refine C103_regular (totalOfUsize _) e he fma dims starts steps vals hs lin lin' x fun k => ?_
  refine cell_computed (f := Format.binary32) (by rw [binary32_u]; norm_num)
    (by rw [binary32_u, binary32_η]; norm_num) (hdims k).1 (by decide) (hdims k).2 (hfin k).2.2 (hfin k).1
    (hfin k).2.1 (hpos k) ?_ (hlow k) ?_
  · have := abs_sub (val (x k)) (val (starts k))
    exact le_trans (by linarith [(hsmall k).1, (hsmall k).2]) hΩ
  · rw [binary32_u]
    have := hhigh k
    norm_num at this ⊢
    linarith

/-- Rectilinear grids, `f32`: for every observation in the closed range of the grid the results with
and without the flag differ by rounding errors only. -/
theorem C103_rectilinear_near_f32 (e : Evaluator) (he : e.Fits N) (hN8 : N ≤ 8) (fma : Bool)
    (grids : Fin N → List F32) (vals : List F32) (lin lin' : Bool)
    (hG : (Axes.rectilinear fun k => (grids k).map val).Valid 4 (vals.map val))
    (hgrid : ∀ k, ∀ a ∈ grids k, Finite a ∧ |val a| ≤ 2 ^ 126)
    (M : ℚ) (hM : M ≤ 2 ^ 40) (hM1 : 1 / 2 ^ 126 ≤ M)
    (hvals : ∀ v ∈ vals, Finite v ∧ |val v| ≤ M) (x : Fin N → F32) (hx : ∀ k, Finite (x k))
    (hin : ∀ k, InRange (grids k).length (fun i => ((grids k).map val).getD i 0) (val (x k)))
    (ρ : ℚ) (hρ : 1 ≤ ρ) (hρ2 : ρ ≤ 2 ^ 9)
    (hmesh : ∀ k, MeshRatio (grids k).length (fun i => ((grids k).map val).getD i 0) ρ) :
    ∃ r r', multicubicRectilinearAt e fma grids vals lin x = .ok r ∧
      multicubicRectilinearAt e fma grids vals lin' x = .ok r' ∧ Finite r ∧ Finite r' ∧
      |val r - val r'| ≤
        2 * (3200 * N * ρ * (1 / 2 ^ 24) * (1 + ρ ^ 2 / (2 * (1 + ρ))) ^ N * M) := by
  obtain ⟨r, y, h1, h2, h3, h4⟩ := C82_rectilinear_f32 e he hN8 fma grids vals lin hG hgrid M hM hM1
    hvals x hx hin ρ hρ hρ2 hmesh
  obtain ⟨r', y', h1', h2', h3', h4'⟩ := C82_rectilinear_f32 e he hN8 fma grids vals lin' hG hgrid
    M hM hM1 hvals x hx hin ρ hρ hρ2 hmesh
  have : y' = y := by
    have := (C103_exact e he fma _ _ hG lin lin' (fun k => val (x k)) (fun k => by
      have := hin k
      rw [← List.length_map (f := val)] at this
      exact this)).symm.trans h3
    rw [h3'] at this
    exact Res.ok.inj this
  subst this
  exact ⟨r, r', h1, h1', h2, h2', near_same h4 h4'⟩

/-- Regular grids, `f32`: the same. -/
theorem C103_regular_near_f32 (e : Evaluator) (he : e.Fits N) (hN8 : N ≤ 8) (fma : Bool) (κ : ℚ)
    (hκ : 0 ≤ κ) (hN : 4200 * N * (1 + κ) ≤ 2 ^ 24)
    (dims : Fin N → Nat) (starts steps : Fin N → F32) (vals : List F32) (lin lin' : Bool)
    (hG : (Axes.regular dims (fun k => val (starts k)) fun k => val (steps k)).Valid 4
      (vals.map val))
    (hfin : ∀ k, Finite (starts k) ∧ Finite (steps k)) (hnormal : ∀ k, 1 / 2 ^ 126 ≤ val (steps k))
    (hnodes : ∀ k, |val (starts k)| ≤ κ * val (steps k) ∧
      |val (starts k) + val (steps k) * ((dims k - 1 : Nat) : ℚ)| ≤ κ * val (steps k))
    (hlarge : ∀ k, κ * val (steps k) ≤ 2 ^ 124)
    (M : ℚ) (hM : M ≤ 2 ^ 110) (hM1 : 1 / 2 ^ 126 ≤ M)
    (hvals : ∀ v ∈ vals, Finite v ∧ |val v| ≤ M) (x : Fin N → F32) (hx : ∀ k, Finite (x k))
    (hin : ∀ k, InRange (dims k) (fun i => val (starts k) + val (steps k) * (i : ℚ)) (val (x k))) :
    ∃ r r', multicubicRegularAt e fma dims starts steps vals lin x = .ok r ∧
      multicubicRegularAt e fma dims starts steps vals lin' x = .ok r' ∧ Finite r ∧ Finite r' ∧
      |val r - val r'| ≤ 2 * (4200 * N * (1 + κ) * (1 / 2 ^ 24) * (5 / 4) ^ N * M) := by
  obtain ⟨r, y, h1, h2, h3, h4⟩ := C82_regular_f32 e he hN8 fma κ hκ hN dims starts steps vals lin hG
    hfin hnormal hnodes hlarge M hM hM1 hvals x hx hin
  obtain ⟨r', y', h1', h2', h3', h4'⟩ := C82_regular_f32 e he hN8 fma κ hκ hN dims starts steps vals
    lin' hG hfin hnormal hnodes hlarge M hM hM1 hvals x hx hin
  have : y' = y := by
    have := (C103_exact e he fma _ _ hG lin lin' (fun k => val (x k)) hin).symm.trans h3
    rw [h3'] at this
    exact Res.ok.inj this
  subst this
  exact ⟨r, r', h1, h1', h2, h2', near_same h4 h4'⟩

end

/-! ### The flag outside the grid, and at one end node -/

/-- The nodes 0, 1, 2, 3. -/
def exLinGrid : Fin 1 → List F64 := ![[q64 0, q64 1, q64 2, q64 3]]
/-- The values 0.1, 0.7, 0.8, 0.1. -/
def exLinVals : List F64 := [q64 (1 / 10), q64 (7 / 10), q64 (8 / 10), q64 (1 / 10)]

/-- The strict inequalities cannot be dropped. At the first node of a rectilinear axis and at the
last node of a regular axis the code takes the extrapolation branch. With the flag it returns the
stored value, without it a rounding error remains. -/
theorem C103_end_nodes :
    multicubicRectilinearAt .flat false exLinGrid exLinVals true ![q64 0] = .ok (q64 (1 / 10)) ∧
    multicubicRectilinearAt .flat false exLinGrid exLinVals false ![q64 0] ≠ .ok (q64 (1 / 10)) ∧
    multicubicRegularAt .flat false ![4] ![q64 0] ![q64 1] exLinVals true ![q64 3] =
      .ok (q64 (1 / 10)) ∧
    multicubicRegularAt .flat false ![4] ![q64 0] ![q64 1] exLinVals false ![q64 3] ≠
      .ok (q64 (1 / 10)) := by
  decide +kernel

/-- Outside the grid the flag changes the results on both kinds of grid, on both sides, for both
evaluators. -/
theorem C103_outside :
    (∀ v ∈ [q64 (-1), q64 4], multicubicRectilinearAt .flat false exLinGrid exLinVals true ![v] ≠
      multicubicRectilinearAt .flat false exLinGrid exLinVals false ![v]) ∧
    (∀ v ∈ [q64 (-1), q64 4],
      multicubicRegularAt .flat false ![4] ![q64 0] ![q64 1] exLinVals true ![v] ≠
      multicubicRegularAt .flat false ![4] ![q64 0] ![q64 1] exLinVals false ![v]) ∧
    (∀ v ∈ [q64 (-1), q64 4],
      multicubicRectilinearAt (.recursive 8) false exLinGrid exLinVals true ![v] ≠
      multicubicRectilinearAt (.recursive 8) false exLinGrid exLinVals false ![v]) ∧
    (∀ v ∈ [q64 (-1), q64 4],
      multicubicRegularAt (.recursive 8) false ![4] ![q64 0] ![q64 1] exLinVals true ![v] ≠
      multicubicRegularAt (.recursive 8) false ![4] ![q64 0] ![q64 1] exLinVals false ![v]) := by
  decide +kernel

/-! ### Concrete cases -/

/-- Hypotheses of `C103_rectilinear` are satisfied, the last node included. -/
example : multicubicRectilinearAt .flat false exLinGrid exLinVals true ![q64 3] =
    multicubicRectilinearAt .flat false exLinGrid exLinVals false ![q64 3] :=
  C103_rectilinear .flat (show 0 < 1 by decide) false exLinGrid exLinVals (by unfold IsSlice; decide +kernel) true false
    ![q64 3] (fun k => ⟨q64 0, by fin_cases k; decide +kernel⟩)
    (fun k => ⟨q64 3, by fin_cases k; decide +kernel⟩)

/-- Hypotheses of `C103_regular` are satisfied, the first node included. -/
example : multicubicRegularAt .flat false ![4] ![q64 0] ![q64 1] exLinVals true ![q64 0] =
    multicubicRegularAt .flat false ![4] ![q64 0] ![q64 1] exLinVals false ![q64 0] :=
  C103_regular (totalOfUsize _) .flat (show 0 < 1 by decide) false ![4] ![q64 0] ![q64 1] exLinVals
    (by unfold IsSlice; decide +kernel) true false ![q64 0] (fun k => ⟨0, by fin_cases k; decide +kernel⟩)

attribute [local instance] exactOps in
/-- Hypotheses of `C103_exact` are satisfied, at a corner of the grid. -/
example : multicubicAt .flat false (.rectilinear fun k => (exGrids64c k).map val) (exVals64c.map val)
      true ![0, 3] =
    multicubicAt .flat false (.rectilinear fun k => (exGrids64c k).map val) (exVals64c.map val)
      false ![0, 3] :=
  C103_exact .flat (show 0 < 2 by decide) false _ _ (valid_of_check (by decide +kernel)) true false
    ![0, 3] (by unfold InRange; decide +kernel)

/-- Hypotheses of `C103_rectilinear_f64` are satisfied. -/
example : multicubicRectilinearAt .flat false exGrids64c exVals64c true ![q64 (1 / 3), q64 3] =
    multicubicRectilinearAt .flat false exGrids64c exVals64c false ![q64 (1 / 3), q64 3] :=
  C103_rectilinear_f64 .flat (show 0 < 2 by decide) false exGrids64c exVals64c (by unfold IsSlice; decide +kernel)
    true false ![q64 (1 / 3), q64 3] (by decide +kernel) (by decide +kernel) (by decide +kernel)
    (by decide +kernel) (by decide +kernel)

/-- Hypotheses of `C103_rectilinear_f32` are satisfied. -/
example : multicubicRectilinearAt .flat false exGrids32c exVals32c true ![q32 (1 / 3), q32 3] =
    multicubicRectilinearAt .flat false exGrids32c exVals32c false ![q32 (1 / 3), q32 3] :=
  C103_rectilinear_f32 .flat (show 0 < 2 by decide) false exGrids32c exVals32c (by unfold IsSlice; decide +kernel)
    true false ![q32 (1 / 3), q32 3] (by decide +kernel) (by decide +kernel) (by decide +kernel)
    (by decide +kernel) (by decide +kernel)

/-- Hypotheses of `C103_regular_f64` are satisfied, the first node included. -/
example : multicubicRegularAt .flat true ![4, 5] ![q64 (1 / 10), q64 1] ![q64 (1 / 10), q64 2]
      exVals64c true ![q64 (1 / 10), q64 (899 / 100)] =
    multicubicRegularAt .flat true ![4, 5] ![q64 (1 / 10), q64 1] ![q64 (1 / 10), q64 2]
      exVals64c false ![q64 (1 / 10), q64 (899 / 100)] :=
  C103_regular_f64 .flat (show 0 < 2 by decide) true ![4, 5] (by decide) _ _ exVals64c
    (by unfold IsSlice; decide +kernel) true false _ (by decide +kernel) (by decide +kernel) (by decide +kernel)
    (by decide +kernel) (by decide +kernel)

/-- Hypotheses of `C103_regular_f32` are satisfied. -/
example : multicubicRegularAt .flat true ![4, 5] ![q32 (1 / 10), q32 1] ![q32 (1 / 10), q32 2]
      exVals32c true ![q32 (1 / 10), q32 (899 / 100)] =
    multicubicRegularAt .flat true ![4, 5] ![q32 (1 / 10), q32 1] ![q32 (1 / 10), q32 2]
      exVals32c false ![q32 (1 / 10), q32 (899 / 100)] :=
  C103_regular_f32 .flat (show 0 < 2 by decide) true ![4, 5] (by decide) _ _ exVals32c
    (by unfold IsSlice; decide +kernel) true false _ (by decide +kernel) (by decide +kernel) (by decide +kernel)
    (by decide +kernel) (by decide +kernel)

/-- Hypotheses of `C103_rectilinear_near_f64` are satisfied at a corner of the grid. -/
example : ∃ r r', multicubicRectilinearAt .flat false exLinGrid exLinVals true ![q64 0] = .ok r ∧
    multicubicRectilinearAt .flat false exLinGrid exLinVals false ![q64 0] = .ok r' ∧
    |val r - val r'| ≤ 1 / 10 ^ 11 := by
  obtain ⟨r, r', h1, h2, -, -, h4⟩ := C103_rectilinear_near_f64 .flat (show 0 < 1 by decide)
    (by norm_num) false exLinGrid exLinVals true false (valid_of_check (by decide +kernel))
    (by decide +kernel) 1 (by norm_num) (by norm_num) (by decide +kernel) ![q64 0] (by decide +kernel)
    (by unfold InRange; decide +kernel) 1 le_rfl (by norm_num)
    (fun k i hi => (show ∀ k, ∀ i < (exLinGrid k).length, i + 2 < (exLinGrid k).length →
      ((exLinGrid k).map val).getD (i + 1) 0 - ((exLinGrid k).map val).getD i 0 ≤
        1 * (((exLinGrid k).map val).getD (i + 2) 0 - ((exLinGrid k).map val).getD (i + 1) 0) ∧
      ((exLinGrid k).map val).getD (i + 2) 0 - ((exLinGrid k).map val).getD (i + 1) 0 ≤
        1 * (((exLinGrid k).map val).getD (i + 1) 0 - ((exLinGrid k).map val).getD i 0) by
      decide +kernel) k i (by omega) hi)
  exact ⟨r, r', h1, h2, h4.trans (by norm_num)⟩

/-- Hypotheses of `C103_regular_near_f64` are satisfied at the last node. -/
example : ∃ r r', multicubicRegularAt .flat false ![4] ![q64 0] ![q64 1] exLinVals true ![q64 3] = .ok r ∧
    multicubicRegularAt .flat false ![4] ![q64 0] ![q64 1] exLinVals false ![q64 3] = .ok r' ∧
    |val r - val r'| ≤ 1 / 10 ^ 11 := by
  obtain ⟨r, r', h1, h2, -, -, h4⟩ := C103_regular_near_f64 .flat (show 0 < 1 by decide)
    (by norm_num) false 3 (by norm_num) (by norm_num) ![4] ![q64 0] ![q64 1] exLinVals true false
    (valid_of_check (by decide +kernel)) (by decide +kernel) (by decide +kernel) (by decide +kernel)
    (by decide +kernel) 1 (by norm_num) (by norm_num) (by decide +kernel) ![q64 3] (by decide +kernel)
    (by unfold InRange; decide +kernel)
  exact ⟨r, r', h1, h2, h4.trans (by norm_num)⟩

/-- Hypotheses of `C103_rectilinear_near_f32` are satisfied. -/
example : ∃ r r', multicubicRectilinearAt .flat false exGrids32c exVals32c true ![q32 0, q32 0] = .ok r ∧
    multicubicRectilinearAt .flat false exGrids32c exVals32c false ![q32 0, q32 0] = .ok r' ∧
    |val r - val r'| ≤ 1 / 10 := by
  obtain ⟨r, r', h1, h2, -, -, h4⟩ := C103_rectilinear_near_f32 .flat (show 0 < 2 by decide)
    (by norm_num) false exGrids32c exVals32c true false (valid_of_check (by decide +kernel))
    (by decide +kernel) 16 (by norm_num) (by norm_num) (by decide +kernel) ![q32 0, q32 0]
    (by decide +kernel) (by unfold InRange; decide +kernel) 2 (by norm_num) (by norm_num)
    (fun k i hi => (show ∀ k, ∀ i < (exGrids32c k).length, i + 2 < (exGrids32c k).length →
      ((exGrids32c k).map val).getD (i + 1) 0 - ((exGrids32c k).map val).getD i 0 ≤
        2 * (((exGrids32c k).map val).getD (i + 2) 0 - ((exGrids32c k).map val).getD (i + 1) 0) ∧
      ((exGrids32c k).map val).getD (i + 2) 0 - ((exGrids32c k).map val).getD (i + 1) 0 ≤
        2 * (((exGrids32c k).map val).getD (i + 1) 0 - ((exGrids32c k).map val).getD i 0) by
      decide +kernel) k i (by omega) hi)
  exact ⟨r, r', h1, h2, h4.trans (by norm_num)⟩

/-- Hypotheses of `C103_regular_near_f32` are satisfied at the far corner of the grid. -/
example : ∃ r r', multicubicRegularAt .flat true ![4, 5] ![q32 1, q32 1] ![q32 1, q32 2]
      exVals32c true ![q32 4, q32 9] = .ok r ∧
    multicubicRegularAt .flat true ![4, 5] ![q32 1, q32 1] ![q32 1, q32 2]
      exVals32c false ![q32 4, q32 9] = .ok r' ∧ |val r - val r'| ≤ 1 / 5 := by
  obtain ⟨r, r', h1, h2, -, -, h4⟩ := C103_regular_near_f32 .flat (show 0 < 2 by decide)
    (by norm_num) true 5 (by norm_num) (by norm_num) ![4, 5] ![q32 1, q32 1] ![q32 1, q32 2] exVals32c
    true false (valid_of_check (by decide +kernel)) (by decide +kernel) (by decide +kernel)
    (by decide +kernel) (by decide +kernel) 16 (by norm_num) (by norm_num) (by decide +kernel)
    ![q32 4, q32 9] (by decide +kernel) (by unfold InRange; decide +kernel)
  exact ⟨r, r', h1, h2, h4.trans (by norm_num)⟩

end Interpn
