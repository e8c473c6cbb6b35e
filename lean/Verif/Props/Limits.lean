import Verif.Props.NoPanic
import Verif.Lemmas.Ieee
import Verif.Lemmas.IeeeExamples
import Verif.Lemmas.ExactCore
import Verif.Lemmas.ExampleGrids
import Mathlib.Tactic.Linarith
import Mathlib.Tactic.NormNum

/-! C07 and C17 with the limits written out: which observations evaluate, err or panic, for Rust
floats and in exact arithmetic. -/

set_option autoImplicit false
set_option linter.unusedSectionVars false
set_option exponentiation.threshold 1100

namespace Interpn

open FloatOps

section
variable {f : Format}

theorem floor_toIsize (q : Ieee f) (h : q.Finite ∧ -(2 ^ 63) ≤ q.val ∧ q.val < 2 ^ 63) :
    toIsize (floor q) = some ⌊q.val⌋ := by
  cases q with
  | fin s a ha hs =>
    obtain ⟨-, h1, h2⟩ := h
    have e : Ieee.val (Ieee.fin s a ha hs) = a := rfl
    rw [e] at h1 h2 ⊢
    show (if isizeMin ≤ truncZ ((⌊a⌋ : Int) : ℚ) ∧ truncZ ((⌊a⌋ : Int) : ℚ) ≤ isizeMax then
      some (truncZ ((⌊a⌋ : Int) : ℚ)) else none) = _
    rw [Ieee.truncZ_intCast, if_pos]
    have l : (-(2 ^ 63) : Int) ≤ ⌊a⌋ := Int.le_floor.2 (by push_cast; exact h1)
    have u : ⌊a⌋ < (2 ^ 63 : Int) := Int.floor_lt.2 (by push_cast; exact h2)
    simp only [isizeMin, isizeMax]
    omega
  | inf s => exact absurd h.1 id
  | nan => exact absurd h.1 id

theorem floor_toIsize_none (q : Ieee f) (h : ¬ (q.Finite ∧ -(2 ^ 63) ≤ q.val ∧ q.val < 2 ^ 63)) :
    toIsize (floor q) = none := by
  cases q with
  | fin s a ha hs =>
    show (if isizeMin ≤ truncZ ((⌊a⌋ : Int) : ℚ) ∧ truncZ ((⌊a⌋ : Int) : ℚ) ≤ isizeMax then
      some (truncZ ((⌊a⌋ : Int) : ℚ)) else none) = _
    rw [Ieee.truncZ_intCast, if_neg]
    rintro ⟨l, u⟩
    refine h ⟨trivial, ?_, ?_⟩
    · have := Int.le_floor.1 l
      change ((-(2 ^ 63) : Int) : ℚ) ≤ a at this
      push_cast at this
      exact this
    · have : ⌊a⌋ < (2 ^ 63 : Int) := by simp only [isizeMax] at u; omega
      have := Int.floor_lt.1 this
      push_cast at this
      exact this
  | inf s => rfl
  | nan => rfl

theorem floor_toIsize_ne (q : Ieee f) :
    toIsize (floor q) ≠ none ↔ q.Finite ∧ -(2 ^ 63) ≤ q.val ∧ q.val < 2 ^ 63 := by
  constructor
  · intro h
    by_contra hc
    exact h (floor_toIsize_none q hc)
  · intro h
    rw [floor_toIsize q h]
    exact Option.some_ne_none _

theorem floor_toIsize_min (q : Ieee f) : toIsize (floor q) = some isizeMin ↔
    q.Finite ∧ -(2 ^ 63) ≤ q.val ∧ q.val < -(2 ^ 63) + 1 := by
  constructor
  · intro h
    have hq := (floor_toIsize_ne q).1 (by rw [h]; exact Option.some_ne_none _)
    rw [floor_toIsize q hq] at h
    have := Option.some.inj h
    refine ⟨hq.1, hq.2.1, ?_⟩
    have := Int.lt_floor_add_one q.val
    rw [‹⌊q.val⌋ = isizeMin›] at this
    change q.val < ((-(2 ^ 63) : Int) : ℚ) + 1 at this
    push_cast at this
    exact this
  · rintro ⟨h1, h2, h3⟩
    rw [floor_toIsize q ⟨h1, h2, by linarith [show (-(2 ^ 63) + 1 : ℚ) < 2 ^ 63 by norm_num]⟩]
    congr 1
    refine Int.floor_eq_iff.2 ⟨?_, ?_⟩
    · show ((-(2 ^ 63) : Int) : ℚ) ≤ q.val
      push_cast
      exact h2
    · show q.val < ((-(2 ^ 63) : Int) : ℚ) + 1
      push_cast
      exact h3

variable {N M : Nat}

/-- C17 for Rust floats, multilinear on a regular grid: a point evaluates exactly if on every axis
the quotient `(x - start) / step`, as computed, is finite, at least `-2^63` and below `2^63`. Any other
point gives the error. -/
theorem C17_ieee_multilinear (fma : Bool) (hN : 0 < N) {dims : Fin N → Nat}
    {starts steps : Fin N → Ieee f} {vals : List (Ieee f)} (hs : IsSlice vals)
    {s : MultilinearRegular (Ieee f) N} (h : MultilinearRegular.new dims starts steps vals = .ok s)
    (x : Fin N → Ieee f) :
    ((∃ v, s.interpOne fma x = .ok v) ↔
      ∀ k, Ieee.Finite ((x k -. starts k) /. steps k) ∧
        -(2 ^ 63) ≤ Ieee.val ((x k -. starts k) /. steps k) ∧
        Ieee.val ((x k -. starts k) /. steps k) < 2 ^ 63) ∧
    ((¬ ∃ v, s.interpOne fma x = .ok v) →
      s.interpOne fma x = .err "Unrepresentable coordinate value") := by
  obtain ⟨h1, h2⟩ := C17_multilinear_regular fma hN (Ieee.totalOfUsize f) hs h x
  simp only [floor_toIsize_ne] at h1
  have h3 : (¬ ∃ v, s.interpOne fma x = .ok v) →
      s.interpOne fma x = .err "Unrepresentable coordinate value" := fun hn => by
    refine h2 ?_
    by_contra hc
    exact hn (h1 fun k => (floor_toIsize_ne _).1 fun hk => hc ⟨k, hk⟩)
  refine ⟨⟨fun ⟨v, hv⟩ k => ?_, h1⟩, h3⟩
  by_contra hk
  rw [h2 ⟨k, floor_toIsize_none _ hk⟩] at hv
  cases hv

/-- C17 for Rust floats, recursive evaluator. -/
theorem C17_ieee_multilinear_recursive (fma : Bool) {dims : Fin N → Nat}
    {starts steps : Fin N → Ieee f} {vals : List (Ieee f)} (hs : IsSlice vals)
    {s : MultilinearRegularRecursive (Ieee f) M}
    (h : MultilinearRegularRecursive.new M (List.ofFn dims) (List.ofFn starts) (List.ofFn steps)
      vals = .ok s) (x : Fin N → Ieee f) :
    ((∃ v, s.interpOne fma (List.ofFn x) = .ok v) ↔
      ∀ k, Ieee.Finite ((x k -. starts k) /. steps k) ∧
        -(2 ^ 63) ≤ Ieee.val ((x k -. starts k) /. steps k) ∧
        Ieee.val ((x k -. starts k) /. steps k) < 2 ^ 63) ∧
    ((¬ ∃ v, s.interpOne fma (List.ofFn x) = .ok v) →
      s.interpOne fma (List.ofFn x) = .err "Unrepresentable coordinate value") := by
  obtain ⟨h1, h2⟩ := C17_multilinear_regular_recursive fma (Ieee.totalOfUsize f) hs h x
  simp only [floor_toIsize_ne] at h1
  refine ⟨⟨fun ⟨v, hv⟩ k => ?_, h1⟩, fun hn => h2 ?_⟩
  · by_contra hk
    rw [h2 ⟨k, floor_toIsize_none _ hk⟩] at hv
    cases hv
  · by_contra hc
    exact hn (h1 fun k => (floor_toIsize_ne _).1 fun hk => hc ⟨k, hk⟩)

/-- C17 for Rust floats, nearest neighbor. -/
theorem C17_ieee_nearest (fma : Bool) {dims : Fin N → Nat} {starts steps : Fin N → Ieee f}
    {vals : List (Ieee f)} (hs : IsSlice vals) {s : NearestRegular (Ieee f) N}
    (h : NearestRegular.new dims starts steps vals = .ok s) (x : Fin N → Ieee f) :
    ((∃ v, s.interpOne fma x = .ok v) ↔
      ∀ k, Ieee.Finite ((x k -. starts k) /. steps k) ∧
        -(2 ^ 63) ≤ Ieee.val ((x k -. starts k) /. steps k) ∧
        Ieee.val ((x k -. starts k) /. steps k) < 2 ^ 63) ∧
    ((¬ ∃ v, s.interpOne fma x = .ok v) →
      s.interpOne fma x = .err "Unrepresentable coordinate value") := by
  obtain ⟨h1, h2⟩ := C17_nearest_regular fma (Ieee.totalOfUsize f) hs h x
  simp only [floor_toIsize_ne] at h1
  refine ⟨⟨fun ⟨v, hv⟩ k => ?_, h1⟩, fun hn => h2 ?_⟩
  · by_contra hk
    rw [h2 ⟨k, floor_toIsize_none _ hk⟩] at hv
    cases hv
  · by_contra hc
    exact hn (h1 fun k => (floor_toIsize_ne _).1 fun hk => hc ⟨k, hk⟩)

theorem cubic_limits {starts steps x : Fin N → Ieee f} {r : Res (Ieee f)}
    (h1 : r = .panic ↔ ∃ k, toIsize (floor ((x k -. starts k) /. steps k)) = some isizeMin ∧
      ∀ j < k, toIsize (floor ((x j -. starts j) /. steps j)) ≠ none)
    (h2 : r = .err "Unrepresentable coordinate value" ↔
      ∃ k, toIsize (floor ((x k -. starts k) /. steps k)) = none ∧
        ∀ j < k, toIsize (floor ((x j -. starts j) /. steps j)) ≠ some isizeMin)
    (h3 : (∃ v, r = .ok v) ↔
      ∀ k, toIsize (floor ((x k -. starts k) /. steps k)) ≠ none ∧
        toIsize (floor ((x k -. starts k) /. steps k)) ≠ some isizeMin) :
    (r = .panic ↔
      ∃ k, (Ieee.Finite ((x k -. starts k) /. steps k) ∧
          -(2 ^ 63) ≤ Ieee.val ((x k -. starts k) /. steps k) ∧
          Ieee.val ((x k -. starts k) /. steps k) < -(2 ^ 63) + 1) ∧
        ∀ j < k, Ieee.Finite ((x j -. starts j) /. steps j) ∧
          -(2 ^ 63) ≤ Ieee.val ((x j -. starts j) /. steps j) ∧
          Ieee.val ((x j -. starts j) /. steps j) < 2 ^ 63) ∧
    ((∃ v, r = .ok v) ↔
      ∀ k, Ieee.Finite ((x k -. starts k) /. steps k) ∧
        -(2 ^ 63) + 1 ≤ Ieee.val ((x k -. starts k) /. steps k) ∧
        Ieee.val ((x k -. starts k) /. steps k) < 2 ^ 63) ∧
    (r ≠ .panic → (¬ ∃ v, r = .ok v) →
      r = .err "Unrepresentable coordinate value") := by
  refine ⟨?_, ?_, fun hp hn => ?_⟩
  · rw [h1]
    simp only [floor_toIsize_ne, floor_toIsize_min]
  · rw [h3]
    simp only [floor_toIsize_ne, ne_eq, floor_toIsize_min]
    refine forall_congr' fun k => ⟨fun ⟨a, b⟩ => ⟨a.1, ?_, a.2.2⟩, fun ⟨a, b, c⟩ => ⟨⟨a, ?_, c⟩, ?_⟩⟩
    · by_contra hc
      exact b ⟨a.1, a.2.1, not_le.1 hc⟩
    · linarith
    · rintro ⟨-, -, d⟩
      exact absurd b (not_le.2 d)
  · rw [h2]
    by_contra hc
    refine hn (h3.2 fun k => ?_)
    -- the first axis with a special quotient decides
    classical
    by_contra hk
    have hex : ∃ n, ∃ h : n < N, toIsize (floor ((x ⟨n, h⟩ -. starts ⟨n, h⟩) /. steps ⟨n, h⟩)) = none ∨
        toIsize (floor ((x ⟨n, h⟩ -. starts ⟨n, h⟩) /. steps ⟨n, h⟩)) = some isizeMin := by
      refine ⟨k.1, k.2, ?_⟩
      by_contra h'
      rw [not_or] at h'
      exact hk h'
    obtain ⟨hlt, hsp⟩ := Nat.find_spec hex
    have hmin : ∀ j : Fin N, j < ⟨Nat.find hex, hlt⟩ →
        ¬ (toIsize (floor ((x j -. starts j) /. steps j)) = none ∨
          toIsize (floor ((x j -. starts j) /. steps j)) = some isizeMin) := fun j hj hq =>
      Nat.find_min hex hj ⟨j.2, hq⟩
    rcases hsp with hsp | hsp
    · exact hc ⟨_, hsp, fun j hj h' => hmin j hj (.inr h')⟩
    · exact hp (h1.2 ⟨_, hsp, fun j hj h' => hmin j hj (.inl h')⟩)

/-- C07 for Rust floats: multicubic evaluation on a regular grid panics exactly if on some axis the
quotient `(x - start) / step`, as computed, lies in `[-2^63, -2^63 + 1)` (for `f32` and `f64` this is
the one number `-2^63`) and on the axes before it is finite and in `[-2^63, 2^63)`; it succeeds exactly
if on all axes it is finite and in `[-2^63 + 1, 2^63)`. -/
theorem C07_ieee (fma : Bool) (hN : 0 < N) {dims : Fin N → Nat} {starts steps : Fin N → Ieee f}
    {vals : List (Ieee f)} {lin : Bool} (hs : IsSlice vals) {s : MulticubicRegular (Ieee f) N}
    (h : MulticubicRegular.new dims starts steps vals lin = .ok s) (x : Fin N → Ieee f) :
    (s.interpOne fma x = .panic ↔
      ∃ k, (Ieee.Finite ((x k -. starts k) /. steps k) ∧
          -(2 ^ 63) ≤ Ieee.val ((x k -. starts k) /. steps k) ∧
          Ieee.val ((x k -. starts k) /. steps k) < -(2 ^ 63) + 1) ∧
        ∀ j < k, Ieee.Finite ((x j -. starts j) /. steps j) ∧
          -(2 ^ 63) ≤ Ieee.val ((x j -. starts j) /. steps j) ∧
          Ieee.val ((x j -. starts j) /. steps j) < 2 ^ 63) ∧
    ((∃ v, s.interpOne fma x = .ok v) ↔
      ∀ k, Ieee.Finite ((x k -. starts k) /. steps k) ∧
        -(2 ^ 63) + 1 ≤ Ieee.val ((x k -. starts k) /. steps k) ∧
        Ieee.val ((x k -. starts k) /. steps k) < 2 ^ 63) ∧
    (s.interpOne fma x ≠ .panic → (¬ ∃ v, s.interpOne fma x = .ok v) →
      s.interpOne fma x = .err "Unrepresentable coordinate value") := by
  obtain ⟨h1, h2, h3⟩ := C07_multicubic_regular fma hN (Ieee.totalOfUsize f) hs h x
  exact cubic_limits h1 h2 h3

/-- C07 for Rust floats, recursive evaluator. -/
theorem C07_ieee_recursive (fma : Bool) {dims : Fin N → Nat} {starts steps : Fin N → Ieee f}
    {vals : List (Ieee f)} {lin : Bool} (hs : IsSlice vals)
    {s : MulticubicRegularRecursive (Ieee f) M}
    (h : MulticubicRegularRecursive.new M (List.ofFn dims) (List.ofFn starts) (List.ofFn steps)
      vals lin = .ok s) (x : Fin N → Ieee f) :
    (s.interpOne fma (List.ofFn x) = .panic ↔
      ∃ k, (Ieee.Finite ((x k -. starts k) /. steps k) ∧
          -(2 ^ 63) ≤ Ieee.val ((x k -. starts k) /. steps k) ∧
          Ieee.val ((x k -. starts k) /. steps k) < -(2 ^ 63) + 1) ∧
        ∀ j < k, Ieee.Finite ((x j -. starts j) /. steps j) ∧
          -(2 ^ 63) ≤ Ieee.val ((x j -. starts j) /. steps j) ∧
          Ieee.val ((x j -. starts j) /. steps j) < 2 ^ 63) ∧
    ((∃ v, s.interpOne fma (List.ofFn x) = .ok v) ↔
      ∀ k, Ieee.Finite ((x k -. starts k) /. steps k) ∧
        -(2 ^ 63) + 1 ≤ Ieee.val ((x k -. starts k) /. steps k) ∧
        Ieee.val ((x k -. starts k) /. steps k) < 2 ^ 63) ∧
    (s.interpOne fma (List.ofFn x) ≠ .panic → (¬ ∃ v, s.interpOne fma (List.ofFn x) = .ok v) →
      s.interpOne fma (List.ofFn x) = .err "Unrepresentable coordinate value") := by
  obtain ⟨h1, h2, h3⟩ := C07_multicubic_regular_recursive fma (Ieee.totalOfUsize f) hs h x
  exact cubic_limits h1 h2 h3

end

section
variable {K : Type} [Field K] [LinearOrder K] [IsStrictOrderedRing K] [FloorRing K] {N : Nat}

/-- C17 in exact arithmetic: linear and nearest-neighbor evaluation succeed exactly if on every axis
of a regular grid the number of the cell, `⌊(x - start) / step⌋`, is from `-2^63` to `2^63 - 1`. -/
theorem C17_exact (e : Evaluator) (he : e.Fits N) (fma : Bool) (dims : Fin N → Nat)
    (starts steps : Fin N → K) (vals : List K)
    (hG : (Axes.regular dims starts steps).Valid 2 vals) (x : Fin N → K) :
    ((∃ y, multilinearAt e fma (.regular dims starts steps) vals x = .ok y) ↔
      ∀ k, -(2 ^ 63) ≤ ⌊(x k - starts k) / steps k⌋ ∧ ⌊(x k - starts k) / steps k⌋ ≤ 2 ^ 63 - 1) ∧
    ((∃ y, nearestAt fma (.regular dims starts steps) vals x = .ok y) ↔
      ∀ k, -(2 ^ 63) ≤ ⌊(x k - starts k) / steps k⌋ ∧ ⌊(x k - starts k) / steps k⌋ ≤ 2 ^ 63 - 1) := by
  have hs := samples_valAt 0 (Axes.regular dims starts steps).size vals hG.len
  constructor
  · constructor
    · rintro ⟨y, hy⟩
      by_contra hx
      rw [multilinearAt_err e he fma _ vals hG x hx] at hy
      cases hy
    · intro hx
      obtain ⟨c, hc⟩ := hG.cells le_rfl x
      exact ⟨_, multilinearAt_eq e he fma _ vals hG _ hs x hx c hc⟩
  · constructor
    · rintro ⟨y, hy⟩
      by_contra hx
      rw [nearestAt_err fma _ vals hG x hx] at hy
      cases hy
    · intro hx
      choose c hc using fun k => exists_isNearest (hG.big k) (hG.incr k) (x k)
      exact ⟨_, nearestAt_eq fma _ vals hG _ hs x hx c hc⟩

end

section Examples

/-- `-2^63` still evaluates, `2^63` and the next number below `-2^63` do not. -/
example : (do
      let s ← MultilinearRegular.new (T := F64) (N := 1) ![2] ![q64 0] ![q64 1] [q64 0, q64 1]
      s.interpOne false ![q64 (-(2 ^ 63))]) = .ok (q64 (-(2 ^ 63))) ∧
    (do
      let s ← MultilinearRegular.new (T := F64) (N := 1) ![2] ![q64 0] ![q64 1] [q64 0, q64 1]
      s.interpOne false ![q64 (2 ^ 63)]) = .err "Unrepresentable coordinate value" ∧
    (do
      let s ← MultilinearRegular.new (T := F64) (N := 1) ![2] ![q64 0] ![q64 1] [q64 0, q64 1]
      s.interpOne false ![q64 (-(2 ^ 63) - 2048)]) = .err "Unrepresentable coordinate value" := by
  decide +kernel

/-- The cubic panics at `-2^63`, has a value just above and an error just below. -/
example : (do
      let s ← MulticubicRegular.new (T := F64) (N := 1) ![4] ![q64 0] ![q64 1]
        [q64 0, q64 0, q64 0, q64 1] true
      s.interpOne false ![q64 (-(2 ^ 63))]) = .panic ∧
    (do
      let s ← MulticubicRegular.new (T := F64) (N := 1) ![4] ![q64 0] ![q64 1]
        [q64 0, q64 0, q64 0, q64 1] true
      s.interpOne false ![q64 (-(2 ^ 63) + 1024)]) = .ok (q64 0) ∧
    (do
      let s ← MulticubicRegular.new (T := F64) (N := 1) ![4] ![q64 0] ![q64 1]
        [q64 0, q64 0, q64 0, q64 1] true
      s.interpOne false ![q64 (-(2 ^ 63) - 2048)]) = .err "Unrepresentable coordinate value" := by
  decide +kernel

/-- The same for the recursive evaluators and nearest neighbor. -/
example : (do
      let s ← MultilinearRegularRecursive.new (T := F64) 2 [2] [q64 0] [q64 1] [q64 0, q64 1]
      s.interpOne false [q64 (2 ^ 63)]) = .err "Unrepresentable coordinate value" ∧
    (do
      let s ← NearestRegular.new (T := F64) (N := 1) ![2] ![q64 0] ![q64 1] [q64 0, q64 1]
      s.interpOne false ![q64 (-(2 ^ 63))]) = .ok (q64 0) ∧
    (do
      let s ← MulticubicRegularRecursive.new (T := F64) 2 [4] [q64 0] [q64 1]
        [q64 0, q64 0, q64 0, q64 1] true
      s.interpOne false [q64 (-(2 ^ 63))]) = .panic := by
  decide +kernel

/-- `C17_exact`: coordinate `2^63 - 1` evaluates, `2^63` does not. -/
example : (∃ y, multilinearAt .flat false (.regular ![2] ![(0 : ℚ)] ![1]) [0, 1]
      ![2 ^ 63 - 1] = .ok y) ∧
    ¬ ∃ y, multilinearAt .flat false (.regular ![2] ![(0 : ℚ)] ![1]) [0, 1] ![2 ^ 63] = .ok y := by
  have hG : (Axes.regular ![2] ![(0 : ℚ)] ![1]).Valid 2 [0, 1] := valid_of_check (by decide +kernel)
  rw [(C17_exact .flat Nat.one_pos false ![2] ![0] ![1] [0, 1] hG _).1,
    (C17_exact .flat Nat.one_pos false ![2] ![0] ![1] [0, 1] hG _).1]
  decide +kernel

end Examples

end Interpn
