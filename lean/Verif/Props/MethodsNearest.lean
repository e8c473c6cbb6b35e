import Verif.Props.MethodsFloat
import Verif.Props.IeeeNearest

/-! C135 in `f64` and `f32`: the distance of nearest-neighbor and linear results. -/

set_option autoImplicit false
set_option linter.unusedSectionVars false
set_option exponentiation.threshold 1100

namespace Interpn
open Ieee FloatOps

section
variable {K : Type} [Field K] [LinearOrder K] [IsStrictOrderedRing K] [FloorRing K] {N : Nat}

/-- One of the two ends of the cell, the closer one up to `δ` cell widths. -/
theorem end_linPiece {n : Nat} {p : Nat → K} (hi : Incr n p) {x : K} {c i : Nat} (hc : InCell n p x c)
    (hx : InRange n p x) {δ : K} (hδ : 0 ≤ δ) (hic : i = c ∨ i = c + 1)
    (hn : NearestWithin n p x (δ * (p (c + 1) - p c)) i) {f : Nat → K} {B : K}
    (hB : ∀ i : {i : Nat // i + 1 < n}, |increment i.1 f| ≤ B) :
    |f i - linPiece p f c x| ≤ (1 + δ) / 2 * B := by
  obtain ⟨h0, h1⟩ := inRange_of_inCell hc hx
  have hb := hB ⟨c, hc.1⟩
  have hw : 0 < p (c + 1) - p c := sub_pos.2 (hi c hc.1)
  have a0 : |x - p c| = x - p c := abs_of_nonneg (by linarith)
  have a1 : |x - p (c + 1)| = p (c + 1) - x := by rw [abs_of_nonpos (by linarith)]; ring
  have n0 := hn.2 c (by have := hc.1; omega)
  have n1 := hn.2 (c + 1) hc.1
  rw [a0] at n0
  rw [a1] at n1
  obtain ⟨t, ht⟩ : ∃ t, t = (x - p c) / (p (c + 1) - p c) := ⟨_, rfl⟩
  have hl : linPiece p f c x = f c + t * increment c f := by rw [ht]; rfl
  have hx' : x - p c = t * (p (c + 1) - p c) := by rw [ht, div_mul_cancel₀ _ hw.ne']
  have t0 : 0 ≤ t := by rw [ht]; exact div_nonneg (by linarith) hw.le
  have t1 : t ≤ 1 := by rw [ht, div_le_one hw]; linarith
  rcases hic with rfl | rfl
  · rw [a0] at n1
    have ht2 : t ≤ (1 + δ) / 2 := by
      rw [← mul_le_mul_iff_left₀ hw, ← hx']; linarith
    rw [hl, show f i - (f i + t * increment i f) = -(t * increment i f) by ring, abs_neg, abs_mul,
      abs_of_nonneg t0]
    exact mul_le_mul ht2 hb (abs_nonneg _) (by linarith)
  · rw [a1] at n0
    have ht2 : 1 - t ≤ (1 + δ) / 2 := by
      rw [← mul_le_mul_iff_left₀ hw, sub_mul, ← hx']; linarith
    rw [hl, show f (c + 1) - (f c + t * increment c f) = (1 - t) * increment c f by
      unfold increment; ring, abs_mul, abs_of_nonneg (by linarith)]
    exact mul_le_mul ht2 hb (abs_nonneg _) (by linarith)

/-- On a uniform axis a node closest up to less than one step is an end of the cell. -/
theorem end_of_within {n : Nat} {p : Nat → K} {h : K} (hh : 0 < h)
    (hp : ∀ i, p (i + 1) - p i = h) {x : K} {c i : Nat} (hc : InCell n p x c) (hx : InRange n p x)
    {δ : K} (hδ : δ < 1) (hn : NearestWithin n p x (δ * h) i) : i = c ∨ i = c + 1 := by
  obtain ⟨h0, h1⟩ := inRange_of_inCell hc hx
  have hd : δ * h < h := by nlinarith
  have mono : ∀ i j, i ≤ j → p i ≤ p j := fun i j hij => by
    induction hij with
    | refl => exact le_rfl
    | step _ ih => exact ih.trans (by have := hp ‹_›; linarith)
  rcases Nat.lt_trichotomy i c with h' | h' | h'
  · have n0 := hn.2 c (by have := hc.1; omega)
    rw [abs_of_nonneg (by linarith : (0 : K) ≤ x - p c)] at n0
    have := mono (i + 1) c h'
    have := hp i
    rw [abs_of_nonneg (by linarith)] at n0
    linarith
  · exact .inl h'
  · rcases Nat.lt_or_ge (c + 1) i with h'' | h''
    · have n1 := hn.2 (c + 1) hc.1
      rw [abs_of_nonpos (by linarith : x - p (c + 1) ≤ (0 : K))] at n1
      have := mono (c + 1 + 1) i h''
      have := hp (c + 1)
      rw [abs_of_nonpos (by linarith)] at n1
      linarith
    · exact .inr (by omega)

/-- Multilinear results against the table value at such ends. -/
theorem multilinear_end (e : Evaluator) (he : e.Fits N) (fma : Bool) (G : Axes K N)
    (vals : List K) (hG : G.Valid 2 vals) (g : (Fin N → Nat) → K) (hg : Samples G.size vals g)
    (D : Fin N → K)
    (hD : ∀ k, ∀ loc : Fin N → Nat, (∀ k, loc k < G.size k) → loc k + 1 < G.size k →
      |g (Function.update loc k (loc k + 1)) - g loc| ≤ D k)
    (x : Fin N → K) (hin : ∀ k, InRange (G.size k) (G.node k) (x k)) (c i : Fin N → Nat)
    (hc : ∀ k, InCell (G.size k) (G.node k) (x k) (c k)) (δ : Fin N → K) (hδ : ∀ k, 0 ≤ δ k)
    (hic : ∀ k, i k = c k ∨ i k = c k + 1)
    (hn : ∀ k, NearestWithin (G.size k) (G.node k) (x k)
      (δ k * (G.node k (c k + 1) - G.node k (c k))) (i k)) :
    ∃ y, multilinearAt e fma G vals x = .ok y ∧ |g i - y| ≤ ∑ k, (1 + δ k) / 2 * D k := by
  have hx : G.Representable x := hG.inRange_fits le_rfl hin _ (by decide)
  refine ⟨_, multilinearAt_eq e he fma G vals hG g hg x hx c hc, ?_⟩
  have key := axisByAxis_replace_all (Λ := (1 : K)) (by norm_num) (n := G.size)
    (fun k => by have := hG.big k; omega)
    (fun k f => linPiece (G.node k) f (c k) (x k)) (fun k f => f (i k))
    (I := fun k => {i : Nat // i + 1 < G.size k}) (fun k j => increment j.1) g
    (fun k => (1 + δ k) / 2) D
    (fun k => linPiece_linear (hc k).1)
    (fun k => ⟨fun f f' h => h _ (hn k).1, fun _ _ => rfl, fun _ _ => rfl⟩)
    (fun k j => increment_linear j.2)
    (fun k f ε hf => by
      rw [one_mul]
      refine ⟨?_, hf _ (hn k).1⟩
      obtain ⟨t0, t1⟩ := weight_mem (hG.incr k) (hc k) (hin k)
      have h1 := abs_le.1 (hf (c k) (by have := (hc k).1; omega))
      have h2 := abs_le.1 (hf (c k + 1) (hc k).1)
      rw [linPiece_weights, abs_le]
      have a1 := mul_le_mul_of_nonneg_left h1.1 (sub_nonneg.2 t1)
      have a2 := mul_le_mul_of_nonneg_left h1.2 (sub_nonneg.2 t1)
      have a3 := mul_le_mul_of_nonneg_left h2.1 t0
      have a4 := mul_le_mul_of_nonneg_left h2.2 t0
      constructor <;> linarith)
    (fun k f B hB => end_linPiece (hG.incr k) (hc k) (hin k) (hδ k) (hic k) (hn k) hB)
    (fun k loc hl j => by
      have hj : ∀ k', Function.update loc k j.1 k' < G.size k' := by
        intro k'
        by_cases h : k' = k
        · subst h; rw [Function.update_self]; have := j.2; omega
        · rw [Function.update_of_ne h]; exact hl k'
      have := hD k (Function.update loc k j.1) hj (by rw [Function.update_self]; exact j.2)
      rwa [Function.update_self, Function.update_idem] at this)
  rw [one_pow, one_mul, axisByAxis_eval _ _ i fun _ _ => rfl] at key
  exact key

end

section
variable {f : Format} {N : Nat}

theorem samples_val {n : Fin N → Nat} {vals : List (Ieee f)} {g : (Fin N → Nat) → Ieee f}
    (hg : Samples n vals g) : Samples n (vals.map val) fun loc => val (g loc) := by
  intro loc hl
  rw [List.getElem?_map, hg loc hl]
  rfl

theorem samples_mem {n : Fin N → Nat} {vals : List (Ieee f)} {g : (Fin N → Nat) → Ieee f}
    (hg : Samples n vals g) {loc : Fin N → Nat} (hl : ∀ k, loc k < n k) : g loc ∈ vals :=
  List.mem_of_getElem? (hg loc hl)

/-- The nearest-neighbor result against a computed linear result. -/
theorem nearest_linear_float {a : Res (Ieee f)} {b : Res (Ieee f)} {A : Res ℚ} {s : Ieee f} {E W : ℚ}
    (ha : ∃ r y, a = .ok r ∧ Finite r ∧ A = .ok y ∧ |val r - y| ≤ E) (hb : b = .ok s)
    (hs : Finite s) (h : ∃ y, A = .ok y ∧ |val s - y| ≤ W) :
    ∃ r s, a = .ok r ∧ b = .ok s ∧ Finite r ∧ Finite s ∧ |val s - val r| ≤ W + E := by
  obtain ⟨r, y, h1, h2, h3, h4⟩ := ha
  obtain ⟨y', e1, e2⟩ := h
  rw [h3] at e1
  cases e1
  refine ⟨r, s, h1, hb, h2, hs, ?_⟩
  rw [abs_le] at *
  constructor <;> linarith [h4.1, h4.2, e2.1, e2.2]

theorem nearest_linear_rectilinear (e : Evaluator) (he : e.Fits N) (fma : Bool)
    (grids : Fin N → List (Ieee f)) (vals : List (Ieee f))
    (hG : (Axes.rectilinear fun k => (grids k).map val).Valid 2 (vals.map val))
    (g : (Fin N → Nat) → Ieee f) (hg : Samples (fun k => (grids k).length) vals g) (D : Fin N → ℚ)
    (hD : ∀ k, ∀ loc : Fin N → Nat, (∀ k, loc k < (grids k).length) → loc k + 1 < (grids k).length →
      |val (g (Function.update loc k (loc k + 1))) - val (g loc)| ≤ D k)
    (x : Fin N → Ieee f)
    (hin : ∀ k, InRange (grids k).length (fun i => ((grids k).map val).getD i 0) (val (x k)))
    (δ : ℚ) (hδ : 0 ≤ δ) (loc : Fin N → Nat)
    (hloc : ∀ k, ∃ c, InCell (grids k).length (fun i => ((grids k).map val).getD i 0) (val (x k)) c ∧
      (loc k = c ∨ loc k = c + 1) ∧
      NearestWithin (grids k).length (fun i => ((grids k).map val).getD i 0) (val (x k))
        (δ * (((grids k).map val).getD (c + 1) 0 - ((grids k).map val).getD c 0)) (loc k)) :
    ∃ y, multilinearAt e fma (.rectilinear fun k => (grids k).map val) (vals.map val)
      (fun k => val (x k)) = .ok y ∧ |val (g loc) - y| ≤ ∑ k, (1 + δ) / 2 * D k := by
  have hsz : (Axes.rectilinear fun k => (grids k).map val : Axes ℚ N).size =
      fun k => (grids k).length := by funext k; simp [Axes.size]
  choose c hc hcl hn using hloc
  exact multilinear_end e he fma _ _ hG (fun loc => val (g loc)) (by rw [hsz]; exact samples_val hg) D
    (by simp only [hsz]; exact hD) _ (by simp only [hsz]; exact hin) c loc
    (by simp only [hsz]; exact hc) (fun _ => δ) (fun _ => hδ) hcl (by simp only [hsz]; exact hn)

theorem nearest_linear_regular (e : Evaluator) (he : e.Fits N) (fma : Bool)
    (dims : Fin N → Nat) (starts steps : Fin N → Ieee f) (vals : List (Ieee f))
    (hG : (Axes.regular dims (fun k => val (starts k)) fun k => val (steps k)).Valid 2 (vals.map val))
    (g : (Fin N → Nat) → Ieee f) (hg : Samples dims vals g) (D : Fin N → ℚ)
    (hD : ∀ k, ∀ loc : Fin N → Nat, (∀ k, loc k < dims k) → loc k + 1 < dims k →
      |val (g (Function.update loc k (loc k + 1))) - val (g loc)| ≤ D k)
    (x : Fin N → Ieee f)
    (hin : ∀ k, InRange (dims k) (fun i => val (starts k) + val (steps k) * (i : ℚ)) (val (x k)))
    (δ : ℚ) (hδ : 0 ≤ δ) (hδ1 : δ < 1) (loc : Fin N → Nat)
    (hloc : ∀ k, NearestWithin (dims k) (fun i => val (starts k) + val (steps k) * (i : ℚ)) (val (x k))
      (δ * val (steps k)) (loc k)) :
    ∃ y, multilinearAt e fma (.regular dims (fun k => val (starts k)) fun k => val (steps k))
      (vals.map val) (fun k => val (x k)) = .ok y ∧
      |val (g loc) - y| ≤ ∑ k, (1 + δ) / 2 * D k := by
  obtain ⟨c, hc⟩ := hG.cells le_rfl fun k => val (x k)
  have hs : ∀ k, 0 < val (steps k) := fun k => hG.step_pos (by omega) k
  have hd : ∀ k (i : Nat), (Axes.regular dims (fun k => val (starts k)) fun k => val (steps k)).node k
      (i + 1) - (Axes.regular dims (fun k => val (starts k)) fun k => val (steps k)).node k i =
        val (steps k) := fun k i => by
    simp only [Axes.node]; push_cast; ring
  exact multilinear_end e he fma _ _ hG (fun loc => val (g loc)) (samples_val hg) D hD _ hin c loc hc
    (fun _ => δ) (fun _ => hδ)
    (fun k => end_of_within (hs k) (hd k) (hc k) (hin k) hδ1 (hloc k))
    (fun k => by rw [hd]; exact hloc k)

end

section
variable {N : Nat}

/-- C135, nearest-neighbor and linear results in `f64` on a rectilinear grid. -/
theorem C135_nearest_rectilinear_f64 (e : Evaluator) (he : e.Fits N) (hN : N ≤ 1000) (fma : Bool)
    (grids : Fin N → List F64) (vals : List F64)
    (hG : (Axes.rectilinear fun k => (grids k).map val).Valid 2 (vals.map val))
    (hgrid : ∀ k, ∀ a ∈ grids k, Finite a ∧ |val a| ≤ 2 ^ 1022) (M : ℚ) (hM : M ≤ 2 ^ 1020)
    (hvals : ∀ v ∈ vals, Finite v ∧ |val v| ≤ M)
    (g : (Fin N → Nat) → F64) (hg : Samples (fun k => (grids k).length) vals g) (D : Fin N → ℚ)
    (hD : ∀ k, ∀ loc : Fin N → Nat, (∀ k, loc k < (grids k).length) → loc k + 1 < (grids k).length →
      |val (g (Function.update loc k (loc k + 1))) - val (g loc)| ≤ D k)
    (x : Fin N → F64) (hx : ∀ k, Finite (x k))
    (hin : ∀ k, InRange (grids k).length (fun i => ((grids k).map val).getD i 0) (val (x k))) :
    ∃ r s, multilinearRectilinearAt e fma grids vals x = .ok r ∧
      nearestRectilinearAt grids vals x = .ok s ∧ Finite r ∧ Finite s ∧
      |val s - val r| ≤ ∑ k, (1 + 7 * (1 / 2 ^ 53)) / 2 * D k +
        (26 * N * (1 / 2 ^ 53) * M + 3 * N * (1 / 2 ^ 1075)) := by
  obtain ⟨loc, h1, h2⟩ := C83_rectilinear_f64 grids vals hG g hg hgrid x hx hin
  exact nearest_linear_float (C81_rectilinear_f64 e he hN fma grids vals hG hgrid M hM hvals x hx hin) h1
    (hvals _ (samples_mem hg fun k => (h2 k).choose_spec.2.2.1)).1
    (nearest_linear_rectilinear e he fma grids vals hG g hg D hD x hin _ (by norm_num) loc h2)

/-- C135, nearest-neighbor and linear results in `f32` on a rectilinear grid. -/
theorem C135_nearest_rectilinear_f32 (e : Evaluator) (he : e.Fits N) (hN : N ≤ 1000) (fma : Bool)
    (grids : Fin N → List F32) (vals : List F32)
    (hG : (Axes.rectilinear fun k => (grids k).map val).Valid 2 (vals.map val))
    (hgrid : ∀ k, ∀ a ∈ grids k, Finite a ∧ |val a| ≤ 2 ^ 126) (M : ℚ) (hM : M ≤ 2 ^ 124)
    (hvals : ∀ v ∈ vals, Finite v ∧ |val v| ≤ M)
    (g : (Fin N → Nat) → F32) (hg : Samples (fun k => (grids k).length) vals g) (D : Fin N → ℚ)
    (hD : ∀ k, ∀ loc : Fin N → Nat, (∀ k, loc k < (grids k).length) → loc k + 1 < (grids k).length →
      |val (g (Function.update loc k (loc k + 1))) - val (g loc)| ≤ D k)
    (x : Fin N → F32) (hx : ∀ k, Finite (x k))
    (hin : ∀ k, InRange (grids k).length (fun i => ((grids k).map val).getD i 0) (val (x k))) :
    ∃ r s, multilinearRectilinearAt e fma grids vals x = .ok r ∧
      nearestRectilinearAt grids vals x = .ok s ∧ Finite r ∧ Finite s ∧
      |val s - val r| ≤ ∑ k, (1 + 7 * (1 / 2 ^ 24)) / 2 * D k +
        (26 * N * (1 / 2 ^ 24) * M + 3 * N * (1 / 2 ^ 150)) := by
  obtain ⟨loc, h1, h2⟩ := C83_rectilinear_f32 grids vals hG g hg hgrid x hx hin
  exact nearest_linear_float (C81_rectilinear_f32 e he hN fma grids vals hG hgrid M hM hvals x hx hin) h1
    (hvals _ (samples_mem hg fun k => (h2 k).choose_spec.2.2.1)).1
    (nearest_linear_rectilinear e he fma grids vals hG g hg D hD x hin _ (by norm_num) loc h2)

/-- C135, nearest-neighbor and linear results in `f64` on a regular grid. -/
theorem C135_nearest_regular_f64 (e : Evaluator) (he : e.Fits N) (fma fma' : Bool) (κ : ℚ) (hκ : 0 ≤ κ)
    (hN : 100 * N * (1 + κ) ≤ 2 ^ 53) (hκ2 : 100 * (1 + κ) ≤ 2 ^ 53)
    (dims : Fin N → Nat) (starts steps : Fin N → F64) (vals : List F64)
    (hG : (Axes.regular dims (fun k => val (starts k)) fun k => val (steps k)).Valid 2 (vals.map val))
    (hfin : ∀ k, Finite (starts k) ∧ Finite (steps k)) (hnormal : ∀ k, 1 / 2 ^ 1022 ≤ val (steps k))
    (hnodes : ∀ k, |val (starts k)| ≤ κ * val (steps k) ∧
      |val (starts k) + val (steps k) * ((dims k - 1 : Nat) : ℚ)| ≤ κ * val (steps k))
    (hlarge : ∀ k, κ * val (steps k) ≤ 2 ^ 1020) (M : ℚ) (hM : M ≤ 2 ^ 1020)
    (hvals : ∀ v ∈ vals, Finite v ∧ |val v| ≤ M)
    (g : (Fin N → Nat) → F64) (hg : Samples dims vals g) (D : Fin N → ℚ)
    (hD : ∀ k, ∀ loc : Fin N → Nat, (∀ k, loc k < dims k) → loc k + 1 < dims k →
      |val (g (Function.update loc k (loc k + 1))) - val (g loc)| ≤ D k)
    (x : Fin N → F64) (hx : ∀ k, Finite (x k))
    (hin : ∀ k, InRange (dims k) (fun i => val (starts k) + val (steps k) * (i : ℚ)) (val (x k))) :
    ∃ r s, multilinearRegularAt e fma dims starts steps vals x = .ok r ∧
      nearestRegularAt fma' dims starts steps vals x = .ok s ∧ Finite r ∧ Finite s ∧
      |val s - val r| ≤ ∑ k, (1 + 7 * (1 + κ) * (1 / 2 ^ 53)) / 2 * D k +
        (60 * N * (1 + κ) * (1 / 2 ^ 53) * M + 3 * N * (1 / 2 ^ 1075)) := by
  obtain ⟨loc, h1, h2⟩ := C83_regular_f64 fma' κ hκ hκ2 dims starts steps vals hG g hg hfin hnormal
    hnodes hlarge x hx hin
  exact nearest_linear_float (C81_regular_f64 e he fma κ hκ hN dims starts steps vals hG hfin hnormal
    hnodes hlarge M hM hvals x hx hin) h1
    (hvals _ (samples_mem hg fun k => (h2 k).1)).1
    (nearest_linear_regular e he fma dims starts steps vals hG g hg D hD x hin _
      (by positivity) (by linarith) loc h2)

/-- C135, nearest-neighbor and linear results in `f32` on a regular grid. -/
theorem C135_nearest_regular_f32 (e : Evaluator) (he : e.Fits N) (fma fma' : Bool) (κ : ℚ) (hκ : 0 ≤ κ)
    (hN : 100 * N * (1 + κ) ≤ 2 ^ 24) (hκ2 : 100 * (1 + κ) ≤ 2 ^ 24)
    (dims : Fin N → Nat) (starts steps : Fin N → F32) (vals : List F32)
    (hG : (Axes.regular dims (fun k => val (starts k)) fun k => val (steps k)).Valid 2 (vals.map val))
    (hfin : ∀ k, Finite (starts k) ∧ Finite (steps k)) (hnormal : ∀ k, 1 / 2 ^ 126 ≤ val (steps k))
    (hnodes : ∀ k, |val (starts k)| ≤ κ * val (steps k) ∧
      |val (starts k) + val (steps k) * ((dims k - 1 : Nat) : ℚ)| ≤ κ * val (steps k))
    (hlarge : ∀ k, κ * val (steps k) ≤ 2 ^ 124) (M : ℚ) (hM : M ≤ 2 ^ 124)
    (hvals : ∀ v ∈ vals, Finite v ∧ |val v| ≤ M)
    (g : (Fin N → Nat) → F32) (hg : Samples dims vals g) (D : Fin N → ℚ)
    (hD : ∀ k, ∀ loc : Fin N → Nat, (∀ k, loc k < dims k) → loc k + 1 < dims k →
      |val (g (Function.update loc k (loc k + 1))) - val (g loc)| ≤ D k)
    (x : Fin N → F32) (hx : ∀ k, Finite (x k))
    (hin : ∀ k, InRange (dims k) (fun i => val (starts k) + val (steps k) * (i : ℚ)) (val (x k))) :
    ∃ r s, multilinearRegularAt e fma dims starts steps vals x = .ok r ∧
      nearestRegularAt fma' dims starts steps vals x = .ok s ∧ Finite r ∧ Finite s ∧
      |val s - val r| ≤ ∑ k, (1 + 7 * (1 + κ) * (1 / 2 ^ 24)) / 2 * D k +
        (60 * N * (1 + κ) * (1 / 2 ^ 24) * M + 3 * N * (1 / 2 ^ 150)) := by
  obtain ⟨loc, h1, h2⟩ := C83_regular_f32 fma' κ hκ hκ2 dims starts steps vals hG g hg hfin hnormal
    hnodes hlarge x hx hin
  exact nearest_linear_float (C81_regular_f32 e he fma κ hκ hN dims starts steps vals hG hfin hnormal
    hnodes hlarge M hM hvals x hx hin) h1
    (hvals _ (samples_mem hg fun k => (h2 k).1)).1
    (nearest_linear_regular e he fma dims starts steps vals hG g hg D hD x hin _
      (by positivity) (by linarith) loc h2)

end

section Examples

/-- Steps of at most 2 in the table, `f64`, rectilinear grid: the results differ by at most 1 and
rounding. -/
example (x : Fin 1 → F64) (hx : ∀ k, Finite (x k))
    (hin : ∀ k : Fin 1, InRange 4 (fun i => ([q64 0, q64 1, q64 3, q64 4].map val).getD i 0) (val (x k))) :
    ∃ r s, multilinearRectilinearAt .flat true (fun _ : Fin 1 => [q64 0, q64 1, q64 3, q64 4]) [q64 0, q64 1, q64 3, q64 5] x = .ok r ∧
      nearestRectilinearAt (fun _ : Fin 1 => [q64 0, q64 1, q64 3, q64 4]) [q64 0, q64 1, q64 3, q64 5] x = .ok s ∧ Finite r ∧ Finite s ∧
      |val s - val r| ≤ 1 + 1 / 10 ^ 10 := by
  have hG : (Axes.rectilinear fun _ : Fin 1 => [q64 0, q64 1, q64 3, q64 4].map val).Valid 2 ([q64 0, q64 1, q64 3, q64 5].map val) :=
    valid_of_check (by decide +kernel)
  obtain ⟨r, s, h1, h2, h3, h4, h5⟩ := C135_nearest_rectilinear_f64 (N := 1) .flat Nat.one_pos (by decide)
    true (fun _ => [q64 0, q64 1, q64 3, q64 4]) [q64 0, q64 1, q64 3, q64 5] hG (by decide +kernel) 5 (by norm_num) (by decide +kernel) _
    (samples_valAt zero _ _ (by decide)) (fun _ => 2) (by
      intro k loc hl hk
      obtain ⟨a, rfl⟩ : ∃ a, loc = ![a] := ⟨loc 0, by funext k; fin_cases k; rfl⟩
      clear hl hin hx x hG
      fin_cases k
      replace hk : a + 1 < 4 := hk
      have : a < 3 := by omega
      interval_cases a <;> decide +kernel) x hx hin
  refine ⟨r, s, h1, h2, h3, h4, h5.trans ?_⟩
  rw [Fin.sum_univ_one]
  norm_num

/-- Steps of at most 2 in the table, `f32`, rectilinear grid: the results differ by at most 1 and
rounding. -/
example (x : Fin 1 → F32) (hx : ∀ k, Finite (x k))
    (hin : ∀ k : Fin 1, InRange 4 (fun i => ([q32 0, q32 1, q32 3, q32 4].map val).getD i 0) (val (x k))) :
    ∃ r s, multilinearRectilinearAt .flat true (fun _ : Fin 1 => [q32 0, q32 1, q32 3, q32 4]) [q32 0, q32 1, q32 3, q32 5] x = .ok r ∧
      nearestRectilinearAt (fun _ : Fin 1 => [q32 0, q32 1, q32 3, q32 4]) [q32 0, q32 1, q32 3, q32 5] x = .ok s ∧ Finite r ∧ Finite s ∧
      |val s - val r| ≤ 1 + 1 / 10 ^ 2 := by
  have hG : (Axes.rectilinear fun _ : Fin 1 => [q32 0, q32 1, q32 3, q32 4].map val).Valid 2 ([q32 0, q32 1, q32 3, q32 5].map val) :=
    valid_of_check (by decide +kernel)
  obtain ⟨r, s, h1, h2, h3, h4, h5⟩ := C135_nearest_rectilinear_f32 (N := 1) .flat Nat.one_pos (by decide)
    true (fun _ => [q32 0, q32 1, q32 3, q32 4]) [q32 0, q32 1, q32 3, q32 5] hG (by decide +kernel) 5 (by norm_num) (by decide +kernel) _
    (samples_valAt zero _ _ (by decide)) (fun _ => 2) (by
      intro k loc hl hk
      obtain ⟨a, rfl⟩ : ∃ a, loc = ![a] := ⟨loc 0, by funext k; fin_cases k; rfl⟩
      clear hl hin hx x hG
      fin_cases k
      replace hk : a + 1 < 4 := hk
      have : a < 3 := by omega
      interval_cases a <;> decide +kernel) x hx hin
  refine ⟨r, s, h1, h2, h3, h4, h5.trans ?_⟩
  rw [Fin.sum_univ_one]
  norm_num

/-- The same table on a regular grid, `f64`. -/
example (x : Fin 1 → F64) (hx : ∀ k, Finite (x k))
    (hin : ∀ k : Fin 1, InRange 4 (fun i => val (q64 0) + val (q64 (1 / 2)) * (i : ℚ)) (val (x k))) :
    ∃ r s, multilinearRegularAt .flat true (fun _ : Fin 1 => 4) (fun _ => q64 0) (fun _ => q64 (1 / 2))
      [q64 0, q64 1, q64 3, q64 5] x = .ok r ∧
      nearestRegularAt false (fun _ : Fin 1 => 4) (fun _ => q64 0) (fun _ => q64 (1 / 2))
        [q64 0, q64 1, q64 3, q64 5] x = .ok s ∧ Finite r ∧ Finite s ∧ |val s - val r| ≤ 1 + 1 / 10 ^ 10 := by
  have hG : (Axes.regular (fun _ : Fin 1 => 4) (fun _ => val (q64 0)) fun _ => val (q64 (1 / 2))).Valid 2
      ([q64 0, q64 1, q64 3, q64 5].map val) := valid_of_check (by decide +kernel)
  obtain ⟨r, s, h1, h2, h3, h4, h5⟩ := C135_nearest_regular_f64 (N := 1) .flat Nat.one_pos true false 3
    (by norm_num) (by norm_num) (by norm_num) (fun _ => 4) (fun _ => q64 0) (fun _ => q64 (1 / 2)) [q64 0, q64 1, q64 3, q64 5] hG
    (by decide +kernel) (by decide +kernel) (by decide +kernel) (by decide +kernel) 5 (by norm_num)
    (by decide +kernel) _ (samples_valAt zero _ _ (by decide)) (fun _ => 2) (by
      intro k loc hl hk
      obtain ⟨a, rfl⟩ : ∃ a, loc = ![a] := ⟨loc 0, by funext k; fin_cases k; rfl⟩
      clear hl hin hx x hG
      fin_cases k
      replace hk : a + 1 < 4 := hk
      have : a < 3 := by omega
      interval_cases a <;> decide +kernel) x hx hin
  refine ⟨r, s, h1, h2, h3, h4, h5.trans ?_⟩
  rw [Fin.sum_univ_one]
  norm_num

/-- The same table on a regular grid, `f32`. -/
example (x : Fin 1 → F32) (hx : ∀ k, Finite (x k))
    (hin : ∀ k : Fin 1, InRange 4 (fun i => val (q32 0) + val (q32 (1 / 2)) * (i : ℚ)) (val (x k))) :
    ∃ r s, multilinearRegularAt .flat true (fun _ : Fin 1 => 4) (fun _ => q32 0) (fun _ => q32 (1 / 2))
      [q32 0, q32 1, q32 3, q32 5] x = .ok r ∧
      nearestRegularAt false (fun _ : Fin 1 => 4) (fun _ => q32 0) (fun _ => q32 (1 / 2))
        [q32 0, q32 1, q32 3, q32 5] x = .ok s ∧ Finite r ∧ Finite s ∧ |val s - val r| ≤ 1 + 1 / 10 ^ 2 := by
  have hG : (Axes.regular (fun _ : Fin 1 => 4) (fun _ => val (q32 0)) fun _ => val (q32 (1 / 2))).Valid 2
      ([q32 0, q32 1, q32 3, q32 5].map val) := valid_of_check (by decide +kernel)
  obtain ⟨r, s, h1, h2, h3, h4, h5⟩ := C135_nearest_regular_f32 (N := 1) .flat Nat.one_pos true false 3
    (by norm_num) (by norm_num) (by norm_num) (fun _ => 4) (fun _ => q32 0) (fun _ => q32 (1 / 2)) [q32 0, q32 1, q32 3, q32 5] hG
    (by decide +kernel) (by decide +kernel) (by decide +kernel) (by decide +kernel) 5 (by norm_num)
    (by decide +kernel) _ (samples_valAt zero _ _ (by decide)) (fun _ => 2) (by
      intro k loc hl hk
      obtain ⟨a, rfl⟩ : ∃ a, loc = ![a] := ⟨loc 0, by funext k; fin_cases k; rfl⟩
      clear hl hin hx x hG
      fin_cases k
      replace hk : a + 1 < 4 := hk
      have : a < 3 := by omega
      interval_cases a <;> decide +kernel) x hx hin
  refine ⟨r, s, h1, h2, h3, h4, h5.trans ?_⟩
  rw [Fin.sum_univ_one]
  norm_num

end Examples

end Interpn
