import Verif.Lemmas.Pieces
import Verif.Lemmas.ExampleGrids

/-! C19–C22: what multilinear interpolation computes in exact arithmetic. Every theorem covers
both grid kinds (`Axes`) and both implementations (`Evaluator`). -/

set_option autoImplicit false
set_option linter.unusedSectionVars false

namespace Interpn

section
variable {K : Type} [Field K] [LinearOrder K] [IsStrictOrderedRing K] [FloorRing K] {N : Nat}

/-- Nodes are representable. -/
theorem Axes.Valid.node_fits {G : Axes K N} {m : Nat} {vals : List K} (hG : G.Valid m vals)
    (hm : 2 ≤ m) {loc : Fin N → Nat} (hl : ∀ k, loc k < G.size k) (lo : Int) (hlo : lo ≤ 0) :
    G.StepsFit lo fun k => G.node k (loc k) := by
  cases G with
  | rectilinear => exact trivial
  | regular dims starts steps =>
    intro k
    have hs := hG.step_pos hm k
    have e : ⌊((Axes.regular dims starts steps).node k (loc k) - starts k) / steps k⌋ = loc k := by
      have : ((Axes.regular dims starts steps).node k (loc k) - starts k) / steps k = loc k := by
        simp only [Axes.node]
        rw [add_sub_cancel_left, mul_div_cancel_left₀ _ hs.ne']
      rw [this]; simp
    simp only [e]
    have hd : (dims k : Int) ≤ isizeMax := by
      have hv : GoodVals m dims vals := ⟨hG.len, hG.big, by
        have := hG.slice
        rw [isSlice_iff] at this
        simp only [isizeMax, usizeMax] at *; omega⟩
      exact hv.dim_le (by omega) hG.slice k
    have := hl k
    simp only [Axes.size, isizeMax] at this hd
    omega

/-- Observations inside the grid range are representable. -/
theorem Axes.Valid.inRange_fits {G : Axes K N} {m : Nat} {vals : List K} (hG : G.Valid m vals)
    (hm : 2 ≤ m) {x : Fin N → K} (hx : ∀ k, InRange (G.size k) (G.node k) (x k)) (lo : Int)
    (hlo : lo ≤ 0) : G.StepsFit lo x := by
  cases G with
  | rectilinear => exact trivial
  | regular dims starts steps =>
    intro k
    have hs := hG.step_pos hm k
    obtain ⟨h0, h1⟩ := hx k
    simp only [Axes.node, Axes.size] at h0 h1
    have hfit := hG.node_fits hm (loc := fun k => dims k - 1)
      (fun k => by have := hG.big k; simp only [Axes.size] at *; omega) lo hlo k
    simp only [Axes.node] at hfit
    refine ⟨hlo.trans (Int.floor_nonneg.2 (div_nonneg ?_ hs.le)), le_trans (Int.floor_mono ?_) hfit.2⟩
    · push_cast at h0; linarith
    · exact div_le_div_of_nonneg_right (by linarith) hs.le

/-- C19: the result is the sum over the `2^N` corners `c + b` of a cell containing the
observation of the product of the weights `t_k` (upper) or `1 - t_k` (lower), times the stored
value, where `t_k` is the relative position in the cell (outside `[0, 1]` for extrapolation). It is
the same for all cells containing the observation. -/
theorem C19_corner_sum (e : Evaluator) (he : e.Fits N) (fma : Bool) (G : Axes K N)
    (vals : List K) (hG : G.Valid 2 vals) (g : (Fin N → Nat) → K) (hg : Samples G.size vals g)
    (x : Fin N → K) (hx : G.Representable x) (c : Fin N → Nat)
    (hc : ∀ k, InCell (G.size k) (G.node k) (x k) (c k)) (t : Fin N → K)
    (ht : ∀ k, t k = (x k - G.node k (c k)) / (G.node k (c k + 1) - G.node k (c k))) :
    multilinearAt e fma G vals x =
      .ok (∑ b : Fin N → Fin 2, (∏ k, if b k = 0 then 1 - t k else t k) *
        g fun k => c k + (b k).val) := by
  rw [multilinearAt_eq e he fma G vals hG g hg x hx c hc]
  congr 1
  rw [axisByAxis_sum _ g (fun _ => (Finset.univ : Finset (Fin 2))) (fun k b => c k + b.val)
    (fun k b => if b = 0 then 1 - t k else t k)]
  · rw [Fintype.piFinset_univ]
  · intro k f
    rw [linPiece_weights, ← ht k]
    simp

/-- C19: every observation has such cells. -/
theorem C19_cells_exist (G : Axes K N) (vals : List K) (hG : G.Valid 2 vals) (x : Fin N → K) :
    ∃ c : Fin N → Nat, ∀ k, InCell (G.size k) (G.node k) (x k) (c k) :=
  hG.cells le_rfl x

/-- C20: at a grid node the stored value is returned. -/
theorem C20_node (e : Evaluator) (he : e.Fits N) (fma : Bool) (G : Axes K N)
    (vals : List K) (hG : G.Valid 2 vals) (g : (Fin N → Nat) → K) (hg : Samples G.size vals g)
    (loc : Fin N → Nat) (hl : ∀ k, loc k < G.size k) :
    multilinearAt e fma G vals (fun k => G.node k (loc k)) = .ok (g loc) := by
  obtain ⟨c, hc⟩ := hG.cells le_rfl fun k => G.node k (loc k)
  rw [multilinearAt_eq e he fma G vals hG g hg _ (hG.node_fits le_rfl hl _ (by decide)) c hc]
  congr 1
  exact axisByAxis_eval _ _ loc fun k f => linPiece_node (hG.incr k) f (hl k) (hc k)

/-- A function that is affine in each coordinate separately. -/
def SeparatelyAffine (F : (Fin N → K) → K) : Prop :=
  ∀ k y, ∃ a b, ∀ z, F (Function.update y k z) = a + b * z

/-- C21: separately affine functions are reproduced at every representable point. -/
theorem C21_reproduces (e : Evaluator) (he : e.Fits N) (fma : Bool) (G : Axes K N)
    (vals : List K) (hG : G.Valid 2 vals) (F : (Fin N → K) → K) (hF : SeparatelyAffine F)
    (hg : Samples G.size vals fun loc => F fun k => G.node k (loc k))
    (x : Fin N → K) (hx : G.Representable x) :
    multilinearAt e fma G vals x = .ok (F x) := by
  obtain ⟨c, hc⟩ := hG.cells le_rfl x
  rw [multilinearAt_eq e he fma G vals hG _ hg x hx c hc]
  congr 1
  exact axisByAxis_reproduce (fun φ => ∃ a b, ∀ z, φ z = a + b * z) _ G.node x F
    (fun k φ hφ => linPiece_affine (hG.incr k) (hc k).1 hφ) hF

/-- C22: inside the grid the result stays within any bounds on the corner values of the cell. -/
theorem C22_range (e : Evaluator) (he : e.Fits N) (fma : Bool) (G : Axes K N)
    (vals : List K) (hG : G.Valid 2 vals) (g : (Fin N → Nat) → K) (hg : Samples G.size vals g)
    (x : Fin N → K) (hx : G.Representable x)
    (hin : ∀ k, InRange (G.size k) (G.node k) (x k)) (c : Fin N → Nat)
    (hc : ∀ k, InCell (G.size k) (G.node k) (x k) (c k)) (lo hi : K)
    (hb : ∀ loc : Fin N → Nat, (∀ k, loc k = c k ∨ loc k = c k + 1) → lo ≤ g loc ∧ g loc ≤ hi) :
    ∃ y, multilinearAt e fma G vals x = .ok y ∧ lo ≤ y ∧ y ≤ hi := by
  refine ⟨_, multilinearAt_eq e he fma G vals hG g hg x hx c hc, ?_⟩
  exact axisByAxis_mem (fun y => lo ≤ y ∧ y ≤ hi) (fun k i => i = c k ∨ i = c k + 1) _ _
    (fun k f hf => linPiece_between (hG.incr k) (hc k) (hin k) (hf _ (.inl rfl)) (hf _ (.inr rfl)))
    hb

/-- C22: changing every value by at most `ε` changes an in-grid result by at most `ε`. -/
theorem C22_stability (e : Evaluator) (he : e.Fits N) (fma : Bool) (G : Axes K N)
    (vals vals' : List K) (hG : G.Valid 2 vals) (hG' : G.Valid 2 vals') (ε : K)
    (hv : ∀ i (h : i < vals.length) (h' : i < vals'.length), |vals[i] - vals'[i]| ≤ ε)
    (x : Fin N → K) (hx : G.Representable x)
    (hin : ∀ k, InRange (G.size k) (G.node k) (x k)) :
    ∃ y y', multilinearAt e fma G vals x = .ok y ∧ multilinearAt e fma G vals' x = .ok y' ∧
      |y - y'| ≤ ε := by
  obtain ⟨c, hc⟩ := hG.cells le_rfl x
  refine ⟨_, _, multilinearAt_eq e he fma G vals hG _ (samples_valAt 0 _ _ hG.len) x hx c hc,
    multilinearAt_eq e he fma G vals' hG' _ (samples_valAt 0 _ _ hG'.len) x hx c hc, ?_⟩
  refine axisByAxis_rel (fun a b => |a - b| ≤ ε) (fun k i => i < G.size k) _ _ _ _ ?_ ?_
  · intro k f f' hf
    have h1 := hf (c k) (by have := (hc k).1; omega)
    have h2 := hf (c k + 1) (hc k).1
    rw [abs_le] at *
    have := linPiece_between (hG.incr k) (hc k) (hin k) (f := fun i => f i - f' i) h1 h2
    have e : linPiece (G.node k) (fun i => f i - f' i) (c k) (x k) =
        linPiece (G.node k) f (c k) (x k) - linPiece (G.node k) f' (c k) (x k) := by
      unfold linPiece; ring
    rwa [e] at this
  · intro loc hl
    have h1 := cIndex_lt G.size loc hl
    rw [← hG.len] at h1
    have h2 : cIndex G.size loc < vals'.length := by rw [hG'.len, ← hG.len]; exact h1
    have := hv _ h1 h2
    simp only [valAt]
    rwa [List.getD_eq_getElem _ _ h1, List.getD_eq_getElem _ _ h2]

end

section Examples

/-- The hypotheses of the theorems above hold for a 3×2 regular grid with data `x + 2 y + 3 x y`,
an in-grid point and an extrapolated point; the results are the bilinear blends. -/
example :
    let F : (Fin 2 → ℚ) → ℚ := fun x => x 0 + 2 * x 1 + 3 * x 0 * x 1
    exRegular.Valid 2 exVals ∧
      Samples exRegular.size exVals (fun loc => F fun k => exRegular.node k (loc k)) ∧
      SeparatelyAffine F ∧
      (∀ k, InCell (exRegular.size k) (exRegular.node k) (![1/2, 2] k) (![0, 0] k)) ∧
      (∀ k, InRange (exRegular.size k) (exRegular.node k) (![1/2, 2] k)) ∧
      exRegular.Representable ![1/2, 2] ∧ exRegular.Representable ![5, -3] ∧
      multilinearAt .flat false exRegular exVals ![1/2, 2] = .ok (15/2) ∧
      multilinearAt (.recursive 3) true exRegular exVals ![5, -3] = .ok (F ![5, -3]) := by
  intro F
  refine ⟨valid_of_check ?_, samples_of_check ?_, ?_, ?_⟩
  · decide +kernel
  · decide +kernel
  · intro k y
    fin_cases k
    · exact ⟨2 * y 1, 1 + 3 * y 1, fun z => by simp [F, Function.update]; ring⟩
    · exact ⟨y 0, 2 + 3 * y 0, fun z => by simp [F, Function.update]; ring⟩
  · decide +kernel

/-- A rectilinear case. -/
example :
    exRectilinear.Valid 2 exVals ∧
      (∀ k, InCell (exRectilinear.size k) (exRectilinear.node k) (![2, 2] k) (![1, 0] k)) ∧
      (∀ k, InRange (exRectilinear.size k) (exRectilinear.node k) (![2, 2] k)) ∧
      multilinearAt .flat true exRectilinear exVals ![2, 2] = .ok (40/3) ∧
      multilinearAt .flat false exRectilinear exVals ![4, 1] = .ok 10 := by
  refine ⟨valid_of_check ?_, ?_⟩ <;> decide +kernel

end Examples

end Interpn
