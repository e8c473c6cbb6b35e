import Verif.Lemmas.ExactFloat
import Verif.Lemmas.RoundingRegular
import Verif.Lemmas.ExampleGrids
import Verif.Lemmas.RoundNum
import Mathlib.Tactic.IntervalCases

/-! C67, C68: what multilinear interpolation computes without any rounding error, for every float
type whose operations are exact when the exact result is a float (`ExactIfFloat`). -/

set_option autoImplicit false
set_option linter.unusedSectionVars false

namespace Interpn
open FloatOps

section
variable {T K : Type} [FloatOps T] [Field K] {val : T → K} {fin : T → Prop} {N : Nat}

/-! ### C67: constant tables -/

/-- Rectilinear grids: the result is a blend with the weights `w` that the code computes for some cell
`c`. If all stored values are the number `z` and the weights are finite, the result is exactly `z`,
inside and outside the grid. -/
theorem C67_rectilinear (h : ExactIfFloat val fin) (e : Evaluator) (he : e.Fits N) (fma : Bool)
    (grids : Fin N → List T) (vals : List T) (hG : RectilinearAccepted 2 grids vals)
    (z : K) (hz : ∀ v ∈ vals, fin v ∧ val v = z) (x : Fin N → T) :
    ∃ (c : Fin N → Nat) (w : Fin N → T) (r : T),
      (∀ k, ∃ a b, (grids k)[c k]? = some a ∧ (grids k)[c k + 1]? = some b ∧
        w k = (x k -. a) /. (b -. a)) ∧
      multilinearRectilinearAt e fma grids vals x = .ok r ∧
      ((∀ k, fin (w k)) → fin r ∧ val r = z) := by
  have hb : ∀ k, linCell (grids k) (x k) + 2 ≤ (grids k).length := fun k =>
    linCell_bound (hG.big k) _
  have hs := samples_valAt zero (fun k => (grids k).length) vals hG.len
  refine ⟨fun k => linCell (grids k) (x k),
    fun k => cellPos (fun i => (grids k).getD i zero) (linCell (grids k) (x k)) (x k), _,
    fun k => ⟨(grids k).getD (linCell (grids k) (x k)) zero,
      (grids k).getD (linCell (grids k) (x k) + 1) zero, ?_, ?_, rfl⟩,
    by rw [multilinearRectilinearAt_eq e he fma grids vals hG.slice x, hG.check le_rfl,
      Res.ok_bind], fun hw => ?_⟩
  · have := hb k
    show (grids k)[linCell (grids k) (x k)]? = _
    rw [List.getElem?_eq_getElem (by omega), List.getD_eq_getElem _ _ (by omega)]
  · have := hb k
    show (grids k)[linCell (grids k) (x k) + 1]? = _
    rw [List.getElem?_eq_getElem (by omega), List.getD_eq_getElem _ _ (by omega)]
  refine axisByAxis_mem (fun a => fin a ∧ val a = z) (fun k i => i < (grids k).length) _ _ ?_ ?_
  · intro k f hf
    have := hb k
    exact lerp_const h fma (hw k) (hf _ (by simp; omega)) (hf _ (by simp; omega))
  · intro loc hl
    exact hz _ (List.mem_of_getElem? (hs loc hl))

/-- Regular grids: the same. The cell is the clamped integer part of `(x - start) / step`, and the
weight is computed from its lower node. -/
theorem C67_regular (h : ExactIfFloat val fin) (e : Evaluator) (he : e.Fits N) (fma : Bool)
    (dims : Fin N → Nat) (starts steps : Fin N → T) (vals : List T)
    (hG : RegularAccepted 2 dims steps vals) (z : K) (hz : ∀ v ∈ vals, fin v ∧ val v = z)
    (x : Fin N → T) (r : T) (hr : multilinearRegularAt e fma dims starts steps vals x = .ok r) :
    ∃ (c : Fin N → Nat) (w : Fin N → T),
      (∀ k, ∃ z f, toIsize (floor ((x k -. starts k) /. steps k)) = some z ∧
        (c k : Int) = max 0 (min z (dims k - 2)) ∧ ofUsize (c k) = some f ∧
        (w k = (x k -. (starts k +. steps k *. f)) /. steps k ∨
          fma = true ∧ w k = (x k -. mulAdd (steps k) f (starts k)) /. steps k)) ∧
      ((∀ k, fin (w k)) → fin r ∧ val r = z) := by
  have heq := multilinearRegularAt_eq e he fma dims starts steps vals hG.slice x
  simp only [hG.check (by omega), Res.ok_bind] at heq
  by_cases hn : ∃ k, linRegAxis (e.fmaLoc fma) (dims k) (starts k) (steps k) (x k) = none
  · rw [heq.2 hn] at hr
    cases hr
  push Not at hn
  have ha := fun k => Option.ne_none_iff_exists'.1 (hn k)
  choose a ha using ha
  have hb : ∀ k, (a k).1 + 2 ≤ dims k := fun k => linRegAxis_bound (hG.big k) (ha k)
  rw [heq.1 a ha, Res.ok.injEq] at hr
  have hs := samples_valAt zero dims vals hG.len
  refine ⟨fun k => (a k).1, fun k => (a k).2, fun k => ?_, fun hw => ?_⟩
  · have hk := ha k
    unfold linRegAxis at hk
    split at hk
    · cases hk
    · next z hz =>
      split at hk
      · cases hk
      · next f hf =>
        rw [Option.some.injEq] at hk
        simp only [← hk]
        have := hG.big k
        refine ⟨z, f, hz, ?_, hf, ?_⟩
        · simp only [clampIdx]; omega
        · cases e with
          | flat =>
            cases fma
            · left; rfl
            · right; exact ⟨rfl, rfl⟩
          | recursive M => left; rfl
  rw [← hr]
  refine axisByAxis_mem (fun a => fin a ∧ val a = z) (fun k i => i < dims k) _ _ ?_ ?_
  · intro k f hf
    have := hb k
    exact lerp_const h fma (hw k) (hf _ (by simp; omega)) (hf _ (by simp; omega))
  · intro loc hl
    exact hz _ (List.mem_of_getElem? (hs loc hl))

/-! ### C68: nodes -/

variable [LinearOrder K] [IsStrictOrderedRing K]

/-- Evaluation at node `i` of a rectilinear grid, if the differences of stored values are floats
(as for integers below `2^52` in `f64`) and those of adjacent nodes are finite and not 0: the result
is exactly the stored value. -/
theorem C68_rectilinear (h : ExactIfFloat val fin) (hcmp : ExactCompare val fin) (e : Evaluator)
    (he : e.Fits N) (fma : Bool) (grids : Fin N → List T) (vals : List T)
    (hG : RectilinearAccepted 2 grids vals) (g : (Fin N → Nat) → T)
    (hg : Samples (fun k => (grids k).length) vals g)
    (hgrid : ∀ k, ∀ a ∈ grids k, fin a)
    (hincr : ∀ k i a b, (grids k)[i]? = some a → (grids k)[i + 1]? = some b →
      val a < val b ∧ fin (b -. a) ∧ val (b -. a) ≠ 0)
    (hvals : ∀ v ∈ vals, fin v)
    (hdiff : ∀ v ∈ vals, ∀ w ∈ vals, ∃ d, fin d ∧ val v - val w = val d)
    (i : Fin N → Nat) (x : Fin N → T) (hx : ∀ k, (grids k)[i k]? = some (x k)) :
    ∃ r, multilinearRectilinearAt e fma grids vals x = .ok r ∧ fin r ∧ val r = val (g i) := by
  have hlen : ∀ k, 2 ≤ (grids k).length := hG.big
  have hb : ∀ k, linCell (grids k) (x k) + 2 ≤ (grids k).length := fun k =>
    linCell_bound (hlen k) _
  have hilen : ∀ k, i k < (grids k).length := fun k => (List.getElem?_eq_some_iff.1 (hx k)).1
  -- the nodes increase
  have hmono : ∀ k (j l : Nat) (a b : T), j < l → (grids k)[j]? = some a →
      (grids k)[l]? = some b → val a < val b := by
    intro k j l a b hjl
    induction l generalizing b with
    | zero => omega
    | succ l ih =>
      intro ha hb
      obtain ⟨c, hc⟩ : ∃ c, (grids k)[l]? = some c :=
        ⟨_, List.getElem?_eq_getElem (by have := (List.getElem?_eq_some_iff.1 hb).1; omega)⟩
      have h1 := (hincr k l c b hc hb).1
      rcases Nat.lt_succ_iff_lt_or_eq.1 hjl with hlt | rfl
      · exact (ih c hlt ha hc).trans h1
      · rw [ha] at hc; cases hc; exact h1
  -- exactly the nodes before `i` are below `x`
  have hcount : ∀ k, cellsBelow (grids k) (x k) = i k := by
    intro k
    have hiff : ∀ (j : Nat) (hj : j < (grids k).length),
        ((grids k)[j] <. x k) = true ↔ j < i k := by
      intro j hj
      rw [hcmp _ _ (hgrid k _ (List.getElem_mem hj)) (hgrid k _ (List.mem_of_getElem? (hx k)))]
      constructor
      · intro hlt
        by_contra hge
        rcases Nat.lt_or_eq_of_le (not_lt.1 hge) with h1 | h1
        · exact lt_asymm hlt (hmono k _ _ _ _ h1 (hx k) (List.getElem?_eq_getElem hj))
        · have := hx k
          rw [h1, List.getElem?_eq_getElem hj, Option.some.injEq] at this
          rw [this] at hlt
          exact lt_irrefl _ hlt
      · intro hlt
        exact hmono k _ _ _ _ hlt (List.getElem?_eq_getElem hj) (hx k)
    have hdown : ∀ (j : Nat) (hj : j < (grids k).length),
        ((grids k)[j] <. x k) = true ↔ j < cellsBelow (grids k) (x k) := fun j hj =>
      cellsBelow_iff (fun a b hab hb' hlt => (hiff a (by omega)).2
        (lt_of_le_of_lt hab ((hiff b hb').1 hlt))) j hj
    have hle := cellsBelow_le (grids k) (x k)
    have hi := hilen k
    refine le_antisymm ?_ ?_
    · by_contra hgt
      have h1 := (hdown (i k) hi).2 (by omega)
      exact lt_irrefl _ ((hiff (i k) hi).1 h1)
    · by_contra hgt
      have h1 := (hiff (cellsBelow (grids k) (x k)) (by omega)).2 (by omega)
      exact lt_irrefl _ ((hdown _ (by omega)).1 h1)
  have hs := samples_valAt zero (fun k => (grids k).length) vals hG.len
  refine ⟨_, by rw [multilinearRectilinearAt_eq e he fma grids vals hG.slice x, hG.check le_rfl,
    Res.ok_bind], ?_⟩
  have key := axisByAxis_rel (fun a (v : T) => fin a ∧ val a = val v ∧ v ∈ vals)
    (fun k j => j < (grids k).length) (fun k => linRule fma (grids k) (x k)) (fun k f => f (i k))
    (valAt zero (fun k => (grids k).length) vals) g ?_ ?_
  · rw [axisByAxis_eval _ g i fun _ _ => rfl] at key
    exact ⟨key.1, key.2.1⟩
  · intro k f f' hf
    have hbk := hb k
    have hik := hilen k
    set c := linCell (grids k) (x k) with hc
    have f0 := hf c (by omega)
    have f1 := hf (c + 1) (by omega)
    have g0 : (grids k)[c]? = some ((grids k).getD c zero) := by
      rw [List.getElem?_eq_getElem (by omega), List.getD_eq_getElem _ _ (by omega)]
    have g1 : (grids k)[c + 1]? = some ((grids k).getD (c + 1) zero) := by
      rw [List.getElem?_eq_getElem (by omega), List.getD_eq_getElem _ _ (by omega)]
    have hd := (hincr k c _ _ g0 g1).2
    have hwt := weight_exact h (hgrid k _ (List.mem_of_getElem? g0)) hd
    obtain ⟨d, hd1, hd2⟩ := hdiff _ f1.2.2 _ f0.2.2
    have hcase : i k = c ∨ i k = c + 1 := by
      have := hcount k
      rw [hc]; unfold linCell; omega
    unfold linRule cellPos
    rw [← hc]
    rcases hcase with h1 | h1
    · have hxc : x k = (grids k).getD c zero := by
        have := hx k; rw [h1, g0] at this; exact (Option.some.inj this).symm
      rw [hxc, h1]
      have hsub := h.sub (f (c + 1)) (f c) d f1.1 f0.1 hd1 (by rw [f1.2.1, f0.2.1]; exact hd2)
      have := lerp_zero h fma (v := fun p => f (c + p.val)) hwt.1 f0.1 hsub.1
      exact ⟨this.1, this.2.trans f0.2.1, f0.2.2⟩
    · have hxc : x k = (grids k).getD (c + 1) zero := by
        have := hx k; rw [h1, g1] at this; exact (Option.some.inj this).symm
      rw [hxc, h1]
      have := lerp_one h fma (v := fun p => f (c + p.val)) (d := d) hwt.2 f0.1 f1.1 hd1
        (by show val (f (c + 1)) - val (f c) = _; rw [f1.2.1, f0.2.1]; exact hd2)
      exact ⟨this.1, this.2.trans f1.2.1, f1.2.2⟩
  · intro loc hl
    have h1 := hs loc hl
    rw [hg loc hl, Option.some.injEq] at h1
    rw [← h1]
    have hmem : g loc ∈ vals := List.mem_of_getElem? (hg loc hl)
    exact ⟨hvals _ hmem, rfl, hmem⟩

/-- Evaluation at node `i` of a regular grid whose nodes are floats (as are the products of the step
and the indices), if the differences of stored values are floats: the result is exactly the stored
value. Otherwise, for instance for a step of `0.1`, only the bound of C66 is available. -/
theorem C68_regular [FloorRing K] (h : ExactIfFloat val fin) (hcmp : ExactCompare val fin)
    {n : Nat} (hwhole : ExactWhole val fin n) (hn : (n : Int) ≤ isizeMax) (e : Evaluator)
    (he : e.Fits N) (fma : Bool) (dims : Fin N → Nat) (starts steps : Fin N → T) (vals : List T)
    (hslice : IsSlice vals) (hlen : vals.length = ∏ k, dims k)
    (hdims : ∀ k, 2 ≤ dims k ∧ dims k ≤ n)
    (hstart : ∀ k, fin (starts k)) (hstep : ∀ k, fin (steps k) ∧ 0 < val (steps k))
    (hnode : ∀ k j, j < dims k → ∃ p q, fin p ∧ val p = val (steps k) * j ∧
      fin q ∧ val q = val (starts k) + val (steps k) * j)
    (g : (Fin N → Nat) → T) (hg : Samples dims vals g) (hvals : ∀ v ∈ vals, fin v)
    (hdiff : ∀ v ∈ vals, ∀ w ∈ vals, ∃ d, fin d ∧ val v - val w = val d)
    (i : Fin N → Nat) (hi : ∀ k, i k < dims k) (x : Fin N → T)
    (hx : ∀ k, fin (x k) ∧ val (x k) = val (starts k) + val (steps k) * i k) :
    ∃ r, multilinearRegularAt e fma dims starts steps vals x = .ok r ∧ fin r ∧ val r = val (g i) := by
  have hG : RegularAccepted 2 dims steps vals := ⟨hslice, hlen, fun k => (hdims k).1, fun k =>
    (hcmp _ _ hwhole.zero.1 (hstep k).1).2 (by rw [hwhole.zero.2]; exact (hstep k).2)⟩
  -- the computed cell and weight
  have hax : ∀ k, ∃ w, linRegAxis (e.fmaLoc fma) (dims k) (starts k) (steps k) (x k) =
      some (min (i k) (dims k - 2), w) ∧ fin w ∧
        ((i k = min (i k) (dims k - 2) ∧ val w = 0) ∨
          (i k = min (i k) (dims k - 2) + 1 ∧ val w = 1)) := by
    intro k
    have hs0 := (hstep k).2.ne'
    have hik := hi k
    have hd := hdims k
    obtain ⟨p, q, hp, hpv, hq, hqv⟩ := hnode k (i k) hik
    have h1 := h.sub (x k) (starts k) p (hx k).1 (hstart k) hp (by rw [(hx k).2, hpv]; ring)
    obtain ⟨fi, -, hfi, hfiv⟩ := hwhole.ofUsize (i k) (by omega)
    have h2 := h.div (x k -. starts k) (steps k) fi h1.1 (hstep k).1 hfi hs0
      (by rw [h1.2, hpv, hfiv, mul_div_cancel_left₀ _ hs0])
    have hfl : ⌊val ((x k -. starts k) /. steps k)⌋ = (i k : Int) := by
      rw [h2.2, hfiv, Int.floor_natCast]
    have hraw : rawCell (starts k) (steps k) (x k) = some (i k : Int) := by
      have := hwhole.toIsize _ h2.1 (by rw [hfl]; simp only [isizeMin]; omega)
        (by rw [hfl]; omega)
      rw [hfl] at this
      exact this
    have hclamp : clampIdx (i k : Int) (dims k - 2) = min (i k) (dims k - 2) := by
      unfold clampIdx; omega
    set c := min (i k) (dims k - 2) with hc
    obtain ⟨f, hf, hff, hfv⟩ := hwhole.ofUsize c (by omega)
    obtain ⟨p', q', hp', hpv', hq', hqv'⟩ := hnode k c (by omega)
    have hnd : fin (if e.fmaLoc fma then mulAdd (steps k) f (starts k)
        else starts k +. steps k *. f) ∧
        val (if e.fmaLoc fma then mulAdd (steps k) f (starts k) else starts k +. steps k *. f) =
          val (starts k) + val (steps k) * c := by
      rw [← hqv']
      cases e.fmaLoc fma with
      | true =>
        exact h.mulAdd _ _ _ q' (hstep k).1 hff (hstart k) hq' (by rw [hfv, hqv']; ring)
      | false =>
        have h3 := h.mul (steps k) f p' (hstep k).1 hff hp' (by rw [hfv, hpv'])
        exact h.add _ _ q' (hstart k) h3.1 hq' (by rw [h3.2, hqv', hpv'])
    refine ⟨_, by unfold linRegAxis; rw [hraw]; simp only [hclamp]; rw [hf], ?_⟩
    have hcase : i k = c ∨ i k = c + 1 := by omega
    rcases hcase with h4 | h4
    · have h5 := h.sub (x k) _ zero (hx k).1 hnd.1 h.zero.1
        (by rw [(hx k).2, hnd.2, h.zero.2, ← h4, sub_self])
      have h6 := h.div _ (steps k) zero h5.1 (hstep k).1 h.zero.1 hs0
        (by rw [h5.2, h.zero.2, zero_div])
      exact ⟨h6.1, .inl ⟨h4, h6.2.trans h.zero.2⟩⟩
    · have h5 := h.sub (x k) _ (steps k) (hx k).1 hnd.1 (hstep k).1
        (by rw [(hx k).2, hnd.2, h4]; push_cast; ring)
      have h6 := h.div _ (steps k) one h5.1 (hstep k).1 h.one.1 hs0
        (by rw [h5.2, h.one.2, div_self hs0])
      exact ⟨h6.1, .inr ⟨h4, h6.2.trans h.one.2⟩⟩
  choose w hrun hwf hwv using hax
  have hs := samples_valAt zero dims vals hlen
  refine ⟨_, by rw [(multilinearRegularAt_eq e he fma dims starts steps vals hslice x).1
    (fun k => (min (i k) (dims k - 2), w k)) hrun, hG.check (by omega), Res.ok_bind], ?_⟩
  have key := axisByAxis_rel (fun a (v : T) => fin a ∧ val a = val v ∧ v ∈ vals)
    (fun k j => j < dims k)
    (fun k f => lerp fma (w k) fun p => f (min (i k) (dims k - 2) + p.val)) (fun k f => f (i k))
    (valAt zero dims vals) g ?_ ?_
  · rw [axisByAxis_eval _ g i fun _ _ => rfl] at key
    exact ⟨key.1, key.2.1⟩
  · intro k f f' hf
    have hd := hdims k
    have hik := hi k
    set c := min (i k) (dims k - 2) with hc
    have f0 := hf c (by omega)
    have f1 := hf (c + 1) (by omega)
    obtain ⟨d, hd1, hd2⟩ := hdiff _ f1.2.2 _ f0.2.2
    rcases hwv k with ⟨h1, h2⟩ | ⟨h1, h2⟩
    · rw [h1]
      have hsub := h.sub (f (c + 1)) (f c) d f1.1 f0.1 hd1 (by rw [f1.2.1, f0.2.1]; exact hd2)
      have := lerp_zero h fma (v := fun p => f (c + p.val)) ⟨hwf k, h2⟩ f0.1 hsub.1
      exact ⟨this.1, this.2.trans f0.2.1, f0.2.2⟩
    · rw [h1]
      have := lerp_one h fma (v := fun p => f (c + p.val)) (d := d) ⟨hwf k, h2⟩ f0.1 f1.1 hd1
        (by show val (f (c + 1)) - val (f c) = _; rw [f1.2.1, f0.2.1]; exact hd2)
      exact ⟨this.1, this.2.trans f1.2.1, f1.2.2⟩
  · intro loc hl
    have h1 := hs loc hl
    rw [hg loc hl, Option.some.injEq] at h1
    rw [← h1]
    have hmem : g loc ∈ vals := List.mem_of_getElem? (hg loc hl)
    exact ⟨hvals _ hmem, rfl, hmem⟩

end

/-! ### Concrete cases -/

section Examples
open ExtNum

/-- Floating-point numbers with 53 significant bits and exponents up to 1023 (rounding down). -/
@[reducible] def float53 : FloatOps (ExtNum ℚ) := bitOps 53 1023
attribute [local instance] float53

/-- The condition of C68 on differences cannot be dropped: with values `2^60` and `1` at the nodes
`0` and `1`, all of them floats, the result at node 1 is `0`. It is not even between the values. -/
theorem C68_counterexample :
    RectilinearAccepted 2 (fun _ : Fin 1 => [(fin 0 : ExtNum ℚ), fin 1]) [fin (2 ^ 60), fin 1] ∧
    (∀ v ∈ [(fin (2 ^ 60) : ExtNum ℚ), fin 1, fin 0], IsFloat 53 1023 v) ∧
    multilinearRectilinearAt .flat false (fun _ : Fin 1 => [(fin 0 : ExtNum ℚ), fin 1])
      [fin (2 ^ 60), fin 1] (fun _ => fin 1) = .ok (fin 0) := by
  refine ⟨⟨by unfold IsSlice; decide, by decide, by decide, fun k => ?_⟩, ?_, ?_⟩
  · exact ⟨_, _, _, rfl, by decide +kernel⟩
  · decide +kernel
  · decide +kernel

/-- A 3×2 grid. -/
def exNodes : Fin 2 → List (ExtNum ℚ) := ![[fin 0, fin (1 / 8), fin 4], [fin 1, fin 3]]

theorem exNodes_accepted (vals : List (ExtNum ℚ)) (h : vals.length = 6) :
    RectilinearAccepted 2 exNodes vals := by
  refine ⟨by unfold IsSlice; rw [h]; decide, by rw [h]; decide, by decide, fun k => ?_⟩
  fin_cases k
  · exact ⟨_, _, _, rfl, by decide +kernel⟩
  · exact ⟨_, _, _, rfl, by decide +kernel⟩

/-- Hypotheses of `C67_rectilinear`: a constant table whose value `1/10` (rounded) is not a short
fraction, at a point whose weights are not floats; the result is the value itself. -/
example : RectilinearAccepted 2 exNodes (List.replicate 6 (fin (3602879701896396 / 2 ^ 55))) ∧
    (∀ v ∈ List.replicate 6 (fin (3602879701896396 / 2 ^ 55) : ExtNum ℚ), IsFloat 53 1023 v) ∧
    (∀ k : Fin 2, IsFloat 53 1023 (![((fin (1 / 4) : ExtNum ℚ) -. fin (1 / 8)) /. (fin 4 -. fin (1 / 8)),
      (fin 7 -. fin 1) /. (fin 3 -. fin 1)] k)) ∧
    multilinearRectilinearAt .flat false exNodes
      (List.replicate 6 (fin (3602879701896396 / 2 ^ 55))) ![fin (1 / 4), fin 7] =
      .ok (fin (3602879701896396 / 2 ^ 55)) :=
  ⟨exNodes_accepted _ rfl, by decide +kernel, by decide +kernel, by decide +kernel⟩

/-- Hypotheses of `C67_regular`. -/
example : RegularAccepted 2 ![3, 2] ![(fin (3602879701896396 / 2 ^ 55) : ExtNum ℚ), fin 2]
      (List.replicate 6 (fin 7)) ∧
    (∀ v ∈ List.replicate 6 (fin 7 : ExtNum ℚ), IsFloat 53 1023 v) ∧
    multilinearRegularAt .flat true ![3, 2] ![fin 1, fin 1]
      ![(fin (3602879701896396 / 2 ^ 55) : ExtNum ℚ), fin 2] (List.replicate 6 (fin 7))
      ![fin (1 / 4), fin 7] = .ok (fin 7) :=
  ⟨⟨by unfold IsSlice; decide, by decide, by decide, by decide +kernel⟩, by decide +kernel,
    by decide +kernel⟩

/-- Hypotheses of `C68_rectilinear` are satisfied: integer values at an interior node. -/
example : ∃ r, multilinearRectilinearAt .flat true exNodes
      [fin 2, fin 6, fin (-7), fin 16, fin 10, fin 3] ![fin (1 / 8), fin 3] = .ok r ∧
    IsFloat 53 1023 r ∧ value r = 16 := by
  have hs : Samples (fun k => (exNodes k).length)
      [(fin 2 : ExtNum ℚ), fin 6, fin (-7), fin 16, fin 10, fin 3]
      (valAt zero (fun k => (exNodes k).length) _) := samples_valAt zero _ _ (by decide)
  obtain ⟨r, h1, h2, h3⟩ := C68_rectilinear (float_exact (by norm_num)) (float_compare 53 1023) .flat
    (by decide : (0 : Nat) < 2) true exNodes _ (exNodes_accepted _ rfl) _ hs (by decide +kernel)
    (by
      intro k i a b ha hb
      have h1 := (List.getElem?_eq_some_iff.1 hb).1
      fin_cases k
      · have : i < 2 := Nat.lt_of_succ_lt_succ (show i + 1 < 3 from h1)
        interval_cases i
        · cases ha; cases hb; decide +kernel
        · cases ha; cases hb; decide +kernel
      · have : i < 1 := Nat.lt_of_succ_lt_succ (show i + 1 < 2 from h1)
        interval_cases i
        cases ha; cases hb; decide +kernel)
    (by decide +kernel)
    (fun v hv w hw => ⟨v -. w, by revert v w; decide +kernel, by revert v w; decide +kernel⟩)
    ![1, 1] ![fin (1 / 8), fin 3] (by decide +kernel)
  exact ⟨r, h1, h2, h3⟩

/-- Hypotheses of `C68_regular` are satisfied: step `1/4`, integer values, the last node. -/
example : ∃ r, multilinearRegularAt .flat false ![3, 2] ![fin 1, fin (-5)] ![fin (1 / 4), fin 2]
      [fin 2, fin 6, fin (-7), fin 16, fin 10, fin 3] ![fin (3 / 2), fin (-3)] = .ok r ∧
    IsFloat 53 1023 r ∧ value r = 3 := by
  have hs : Samples ![3, 2] [(fin 2 : ExtNum ℚ), fin 6, fin (-7), fin 16, fin 10, fin 3]
      (valAt zero ![3, 2] _) := samples_valAt zero _ _ (by decide)
  obtain ⟨r, h1, h2, h3⟩ := C68_regular (float_exact (by norm_num)) (float_compare 53 1023)
    (float_whole (n := 100) (by norm_num) (by decide +kernel)) (by decide) .flat
    (by decide : (0 : Nat) < 2) false ![3, 2] ![fin 1, fin (-5)] ![fin (1 / 4), fin 2] _
    (by unfold IsSlice; decide) (by decide) (by decide) (by decide +kernel) (by decide +kernel)
    (by
      intro k j hj
      refine ⟨fin (![1 / 4, 2] k * j), fin (![1, -5] k + ![1 / 4, 2] k * j), ?_⟩
      revert hj j k
      decide +kernel)
    _ hs (by decide +kernel)
    (fun v hv w hw => ⟨v -. w, by revert v w; decide +kernel, by revert v w; decide +kernel⟩)
    ![2, 1] (by decide) ![fin (3 / 2), fin (-3)] (by decide +kernel)
  exact ⟨r, h1, h2, h3⟩

end Examples
end Interpn
