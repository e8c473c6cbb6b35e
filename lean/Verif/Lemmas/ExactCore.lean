import Verif.Lemmas.ExactCubic

/-! Evaluation in exact arithmetic: the result is computed axis by axis with the pieces of the
specification, on any choice of cells containing the observation. -/

set_option autoImplicit false
set_option linter.unusedSectionVars false

namespace Interpn
open FloatOps

section
variable {K : Type} [Field K] [LinearOrder K] [IsStrictOrderedRing K] [FloorRing K] {N : Nat}
attribute [local instance] exactOps

theorem Axes.Valid.incr {G : Axes K N} {m : Nat} {vals : List K} (h : G.Valid m vals) (k : Fin N) :
    Incr (G.size k) (G.node k) := h.increasing k

theorem Axes.Valid.step_pos {dims : Fin N → Nat} {starts steps : Fin N → K} {m : Nat}
    {vals : List K} (h : (Axes.regular dims starts steps).Valid m vals) (hm : 2 ≤ m) (k : Fin N) :
    0 < steps k := by
  have h1 := h.big k
  have := h.increasing k 0 (by omega)
  simp only [Axes.node] at this
  push_cast at this
  linarith

theorem Axes.Valid.checkRegular {dims : Fin N → Nat} {starts steps : Fin N → K} {m : Nat}
    {vals : List K} (h : (Axes.regular dims starts steps).Valid m vals) (hm : 2 ≤ m)
    (msg : String) : checkRegular m msg (List.ofFn dims) (List.ofFn steps) vals = .ok () := by
  have hlen : vals.length = (List.ofFn dims).prod := by rw [List.prod_ofFn]; exact h.len
  have hbig : ∀ d ∈ List.ofFn dims, m ≤ d := by
    intro d hd
    rw [List.mem_ofFn] at hd
    obtain ⟨k, rfl⟩ := hd
    exact h.big k
  refine checkRegular_eq_ok.2 ⟨productFits_of_pos (fun d hd => by have := hbig d hd; omega) ?_,
    hlen, hbig, ?_⟩
  · have := h.slice
    rw [isSlice_iff] at this
    rw [← hlen]
    simp only [isizeMax, usizeMax] at *
    omega
  · intro s hs
    rw [List.mem_ofFn] at hs
    obtain ⟨k, rfl⟩ := hs
    have := h.step_pos hm k
    show decide ((0 : K) < _) = true
    simpa using this

theorem Axes.Valid.checkRectilinear {grids : Fin N → List K} {m : Nat}
    {vals : List K} (h : (Axes.rectilinear grids).Valid m vals) (hm : 2 ≤ m)
    (msg : String) : checkRectilinear m msg (List.ofFn grids) vals = .ok () := by
  have hlen : vals.length = ((List.ofFn grids).map List.length).prod := by
    rw [map_length_ofFn, List.prod_ofFn]; exact h.len
  have hbig : ∀ g ∈ List.ofFn grids, m ≤ g.length := by
    intro d hd
    rw [List.mem_ofFn] at hd
    obtain ⟨k, rfl⟩ := hd
    exact h.big k
  refine (checkRectilinear_eq_ok hm).2 ⟨productFits_of_pos (fun d hd => ?_) ?_, hlen, hbig, ?_⟩
  · rw [List.mem_map] at hd
    obtain ⟨g, hg, rfl⟩ := hd
    have := hbig g hg; omega
  · have := h.slice
    rw [isSlice_iff] at this
    rw [← hlen]
    simp only [isizeMax, usizeMax] at *
    omega
  · intro g hg
    have h2 := hbig g hg
    rw [List.mem_ofFn] at hg
    obtain ⟨k, rfl⟩ := hg
    rw [firstPairOk_iff (by omega)]
    have := h.increasing k 0 (by simp only [Axes.size]; omega)
    simp only [Axes.node, zero_add] at this
    rw [List.getD_eq_getElem _ 0 (n := 0) (by omega),
      List.getD_eq_getElem _ 0 (n := 1) (by omega)] at this
    simpa using this

theorem linPiece_congr {p f f' : Nat → K} {i : Nat} {x : K} (h : f i = f' i)
    (h' : f (i + 1) = f' (i + 1)) : linPiece p f i x = linPiece p f' i x := by
  unfold linPiece; rw [h, h']

/-- Multilinear evaluation in exact arithmetic, for any cells containing the observation. -/
theorem multilinearAt_eq (e : Evaluator) (he : e.Fits N) (fma : Bool) (G : Axes K N)
    (vals : List K) (hG : G.Valid 2 vals) (g : (Fin N → Nat) → K) (hg : Samples G.size vals g)
    (x : Fin N → K) (hx : G.Representable x) (c : Fin N → Nat)
    (hc : ∀ k, InCell (G.size k) (G.node k) (x k) (c k)) :
    multilinearAt e fma G vals x =
      .ok (axisByAxis (fun k f => linPiece (G.node k) f (c k) (x k)) g) := by
  have hcong : ∀ g', Samples G.size vals g' →
      axisByAxis (fun k f => linPiece (G.node k) f (c k) (x k)) g' =
      axisByAxis (fun k f => linPiece (G.node k) f (c k) (x k)) g := by
    intro g' hg'
    refine axisByAxis_congr (fun k i => i < G.size k) _ _ _ _ ?_ ?_
    · intro k f f' hf
      have := (hc k).1
      exact linPiece_congr (hf _ (by omega)) (hf _ (by omega))
    · intro loc hl
      exact Option.some.inj ((hg' loc hl).symm.trans (hg loc hl))
  cases G with
  | regular dims starts steps =>
    have hs := fun k => hG.step_pos le_rfl k
    have := (multilinearRegularAt_eq e he fma dims starts steps vals hG.slice x).1 _
      (fun k => linRegAxis_exact _ (hx k))
    simp only [multilinearAt]
    rw [this, hG.checkRegular le_rfl, Res.ok_bind, ← hcong _ (samples_valAt zero _ _ hG.len)]
    congr 1
    apply axisByAxis_congr_op
    intro k f
    rw [lerp_exact, ← linPiece_unique (hG.incr k) f (regular_inCell (hs k) (hG.big k)) (hc k)]
    unfold linPiece Axes.node
    have e : ∀ i : Nat, starts k + steps k * ((i + 1 : Nat) : K) - (starts k + steps k * (i : K)) =
      steps k := fun i => by push_cast; ring
    simp only
    rw [e]
    rfl
  | rectilinear grids =>
    simp only [multilinearAt]
    rw [multilinearRectilinearAt_eq e he fma grids vals hG.slice x, hG.checkRectilinear le_rfl,
      Res.ok_bind, ← hcong _ (samples_valAt zero _ _ hG.len)]
    congr 1
    apply axisByAxis_congr_op
    intro k f
    rw [linRule_exact]
    exact linPiece_unique (hG.incr k) f (rectilinear_inCell (hG.big k) (hG.incr k) (x k)) (hc k)

theorem nodeSlope_congr {n : Nat} {p f f' : Nat → K} (h : ∀ i < n, f i = f' i) {i : Nat}
    (hn : 4 ≤ n) (hi : i < n) : nodeSlope n p f i = nodeSlope n p f' i := by
  unfold nodeSlope
  simp only
  split
  · simp only [Nat.reduceAdd, Nat.reduceSub]
    rw [h 0 (by omega), h 1 (by omega), h 2 (by omega)]
  · split
    · rw [h (i - 1) (by omega), h (i - 1 + 1) (by omega), h (i - 1 - 1) (by omega),
        h (i - 1 - 1 + 1) (by omega)]
    · rw [h (i - 1) (by omega), h (i - 1 + 1) (by omega), h i (by omega), h (i + 1) (by omega)]

theorem cubicPiece_congr {n : Nat} {p f f' : Nat → K} {lin : Bool} {i : Nat} {x : K}
    (hn : 4 ≤ n) (h : ∀ i < n, f i = f' i) (hi : i + 1 < n) :
    cubicPiece n p f lin i x = cubicPiece n p f' lin i x := by
  unfold cubicPiece
  rw [h 0 (by omega), h (n - 1) (by omega), h i (by omega), h (i + 1) hi,
    nodeSlope_congr h hn (i := 0) (by omega), nodeSlope_congr h hn (i := n - 1) (by omega),
    nodeSlope_congr h hn (i := i) (by omega), nodeSlope_congr h hn (i := i + 1) hi]

/-- Multicubic evaluation in exact arithmetic, for any cells containing the observation. -/
theorem multicubicAt_eq (e : Evaluator) (he : e.Fits N) (fma : Bool) (G : Axes K N)
    (vals : List K) (lin : Bool) (hG : G.Valid 4 vals) (g : (Fin N → Nat) → K)
    (hg : Samples G.size vals g) (x : Fin N → K) (hx : G.RepresentableCubic x) (c : Fin N → Nat)
    (hc : ∀ k, InCell (G.size k) (G.node k) (x k) (c k)) :
    multicubicAt e fma G vals lin x =
      .ok (axisByAxis (fun k f => cubicPiece (G.size k) (G.node k) f lin (c k) (x k)) g) := by
  have hcong : ∀ g', Samples G.size vals g' →
      axisByAxis (fun k f => cubicPiece (G.size k) (G.node k) f lin (c k) (x k)) g' =
      axisByAxis (fun k f => cubicPiece (G.size k) (G.node k) f lin (c k) (x k)) g := by
    intro g' hg'
    refine axisByAxis_congr (fun k i => i < G.size k) _ _ _ _ ?_ ?_
    · intro k f f' hf
      exact cubicPiece_congr (hG.big k) hf (hc k).1
    · intro loc hl
      exact Option.some.inj ((hg' loc hl).symm.trans (hg loc hl))
  cases G with
  | regular dims starts steps =>
    have hs := fun k => hG.step_pos (by omega) k
    have hax : ∀ k, cubRegAxis (dims k) (starts k) (steps k) (x k) =
        .ok (clampIdx (⌊(x k - starts k) / steps k⌋ - 1) (dims k - 4),
          satRegular (dims k) ⌊(x k - starts k) / steps k⌋,
          (x k - (starts k + steps k *
            ((clampIdx (⌊(x k - starts k) / steps k⌋ - 1) (dims k - 4) + 1 : Nat) : K))) /
              steps k) := by
      intro k
      have hk := hx k
      unfold cubRegAxis
      rw [rawCell_exact, if_pos ⟨by have := hk.1; simp only [isizeMin]; omega, hk.2⟩]
      simp only
      rw [if_neg (by have := hk.1; simp only [isizeMin]; omega)]
      rfl
    simp only [multicubicAt]
    rw [multicubicRegularAt_eq e he fma totalOfUsize_exact dims starts steps vals lin hG.slice x,
      hG.checkRegular (by omega), Res.ok_bind,
      axisLoop_ok N _ _ _ (fun k => by simp only [aget_fin, Res.ok_bind]; exact hax k),
      Res.ok_bind, ← hcong _ (samples_valAt zero _ _ hG.len)]
    congr 1
    apply axisByAxis_congr_op
    intro k f
    refine (cubRegRule_exact (dim := dims k) _ _ _ (hG.big k) (hs k) f).trans ?_
    exact cubicPiece_unique (hG.incr k) f lin
      (regular_inCell (dim := dims k) (hs k)
        (by have := hG.big k; simp only [Axes.size] at this; omega)) (hc k)
  | rectilinear grids =>
    simp only [multicubicAt]
    rw [multicubicRectilinearAt_eq e he fma grids vals lin hG.slice x,
      hG.checkRectilinear (by omega), Res.ok_bind, ← hcong _ (samples_valAt zero _ _ hG.len)]
    congr 1
    apply axisByAxis_congr_op
    intro k f
    rw [cubRectRule_exact _ _ _ _ (hG.big k) (hG.incr k)]
    exact cubicPiece_unique (hG.incr k) f lin
      (rectilinear_inCell (by have := hG.big k; simp only [Axes.size] at this; omega)
        (hG.incr k) (x k)) (hc k)

/-- Cells containing the observation exist. -/
theorem Axes.Valid.cells {G : Axes K N} {m : Nat} {vals : List K} (hG : G.Valid m vals)
    (hm : 2 ≤ m) (x : Fin N → K) : ∃ c : Fin N → Nat,
      ∀ k, InCell (G.size k) (G.node k) (x k) (c k) :=
  ⟨fun k => (exists_inCell (hm.trans (hG.big k)) (x k)).choose,
    fun k => (exists_inCell (hm.trans (hG.big k)) (x k)).choose_spec⟩

theorem IsNearest.unique {n : Nat} {p : Nat → K} {x : K} {i j : Nat} (hi : IsNearest n p x i)
    (hj : IsNearest n p x j) : i = j := by
  rcases lt_trichotomy i j with h | h | h
  · exact absurd (hj.2.2 i h) (not_lt.2 (hi.2.1 j hj.1))
  · exact h
  · exact absurd (hi.2.2 j h) (not_lt.2 (hj.2.1 i hi.1))

/-- The rounding rule of the code selects the nearest node. -/
theorem nearestOffset_exact {n : Nat} {p : Nat → K} (hi : Incr n p) {x : K} {c : Nat}
    (hc : InCell n p x c) :
    IsNearest n p x (c + nearestOffset ((x - p c) / (p (c + 1) - p c))) := by
  have hstep := hi c hc.1
  have hpos : 0 < p (c + 1) - p c := sub_pos.2 hstep
  have hhalf : nearestOffset ((x - p c) / (p (c + 1) - p c)) =
      if x - p c ≤ p (c + 1) - x then 0 else 1 := by
    unfold nearestOffset half
    rw [exact_le]
    have : ((x - p c) / (p (c + 1) - p c) ≤ (one : K) /. ((one : K) +. one)) ↔
        x - p c ≤ p (c + 1) - x := by
      show (x - p c) / (p (c + 1) - p c) ≤ (1 : K) / (1 + 1) ↔ _
      rw [div_le_iff₀ hpos, one_add_one_eq_two]
      constructor <;> intro h <;> linarith
    simp only [decide_eq_true_iff, this]
  have hbelow : ∀ j, j < c → p j < p c := fun j hj => hi.lt hj (by have := hc.1; omega)
  have habove : ∀ j, c + 1 < j → j < n → p (c + 1) < p j := fun j hj hn => hi.lt hj hn
  rw [hhalf]
  split
  · next h =>
    have key : ∀ j, c < j → j < n → |x - p c| ≤ |x - p j| := by
      intro j hj hn
      have h1 : p (c + 1) ≤ p j := hi.le (by omega) hn
      have h2 : p j - x ≤ |x - p j| := by rw [abs_sub_comm]; exact le_abs_self _
      refine le_trans (abs_le'.2 ⟨?_, ?_⟩) h2 <;> linarith
    have key2 : ∀ j, j < c → |x - p c| < |x - p j| := by
      intro j hj
      have h0 : p c ≤ x := hc.2.1.resolve_left (by omega)
      have := hbelow j hj
      rw [abs_of_nonneg (by linarith), abs_of_nonneg (by linarith)]
      linarith
    refine ⟨by have := hc.1; omega, fun j hj => ?_, fun j hj => key2 j hj⟩
    rcases lt_trichotomy j c with h' | h' | h'
    · exact (key2 j h').le
    · rw [h']; exact le_rfl
    · exact key j h' hj
  · next h =>
    rw [not_le] at h
    have key : ∀ j, j < c + 1 → |x - p (c + 1)| < |x - p j| := by
      intro j hj
      have h1 : p j ≤ p c := hi.le (by omega) (by have := hc.1; omega)
      refine lt_of_lt_of_le (abs_lt.2 ⟨?_, ?_⟩) (le_abs_self _) <;> linarith
    refine ⟨hc.1, fun j hj => ?_, key⟩
    rcases lt_trichotomy j (c + 1) with h' | h' | h'
    · exact (key j h').le
    · rw [h']
    · have h1 := habove j h' hj
      have h2 : x ≤ p (c + 1) := hc.2.2.resolve_left (by omega)
      rw [abs_of_nonpos (by linarith), abs_of_nonpos (by linarith)]
      linarith

/-- Nearest-neighbor evaluation in exact arithmetic. -/
theorem nearestAt_eq (fma : Bool) (G : Axes K N) (vals : List K) (hG : G.Valid 2 vals)
    (g : (Fin N → Nat) → K) (hg : Samples G.size vals g) (x : Fin N → K)
    (hx : G.Representable x) (loc : Fin N → Nat)
    (hl : ∀ k, IsNearest (G.size k) (G.node k) (x k) (loc k)) :
    nearestAt fma G vals x = .ok (g loc) := by
  have hval : valAt zero G.size vals loc = g loc :=
    Option.some.inj ((samples_valAt zero _ _ hG.len loc fun k => (hl k).1).symm.trans
      (hg loc fun k => (hl k).1))
  rw [← hval]
  cases G with
  | regular dims starts steps =>
    have hs := fun k => hG.step_pos le_rfl k
    have hloc : ∀ k, nearRegAxis fma (dims k) (starts k) (steps k) (x k) = some (loc k) := by
      intro k
      unfold nearRegAxis
      rw [linRegAxis_exact _ (hx k), Option.map_some]
      congr 1
      have hn := nearestOffset_exact (hG.incr k)
        (regular_inCell (dim := dims k) (start := starts k) (x := x k) (hs k) (hG.big k))
      have e : ∀ i : Nat, (Axes.regular dims starts steps).node k (i + 1) -
          (Axes.regular dims starts steps).node k i = steps k := fun i => by
        simp only [Axes.node]; push_cast; ring
      rw [e] at hn
      exact hn.unique (hl k)
    simp only [nearestAt]
    rw [(nearestRegularAt_eq fma dims starts steps vals hG.slice x).1 _ hloc,
      hG.checkRegular le_rfl]
    rfl
  | rectilinear grids =>
    have hloc : ∀ k, nearRectAxis (grids k) (x k) = loc k := by
      intro k
      exact (nearestOffset_exact (hG.incr k)
        (rectilinear_inCell (hG.big k) (hG.incr k) (x k))).unique (hl k)
    simp only [nearestAt]
    rw [nearestRectilinearAt_eq grids vals hG.slice x, hG.checkRectilinear le_rfl]
    simp only [hloc, Res.ok_bind]
    rfl

theorem exists_isNearest {n : Nat} {p : Nat → K} (h2 : 2 ≤ n) (hi : Incr n p) (x : K) :
    ∃ i, IsNearest n p x i := by
  obtain ⟨c, hc⟩ := exists_inCell (p := p) h2 x
  exact ⟨_, nearestOffset_exact hi hc⟩

/-- Outside the representable range a regular grid reports an error. -/
theorem multilinearAt_err (e : Evaluator) (he : e.Fits N) (fma : Bool) (G : Axes K N)
    (vals : List K) (hG : G.Valid 2 vals) (x : Fin N → K) (hx : ¬ G.Representable x) :
    multilinearAt e fma G vals x = .err "Unrepresentable coordinate value" := by
  cases G with
  | regular dims starts steps =>
    obtain ⟨k, hk⟩ := not_forall.1 hx
    simp only [multilinearAt]
    rw [(multilinearRegularAt_eq e he fma dims starts steps vals hG.slice x).2
      ⟨k, linRegAxis_exact_none _ hk⟩, hG.checkRegular le_rfl]
    rfl
  | rectilinear grids => exact absurd trivial hx

theorem nearestAt_err (fma : Bool) (G : Axes K N) (vals : List K) (hG : G.Valid 2 vals)
    (x : Fin N → K) (hx : ¬ G.Representable x) :
    nearestAt fma G vals x = .err "Unrepresentable coordinate value" := by
  cases G with
  | regular dims starts steps =>
    obtain ⟨k, hk⟩ := not_forall.1 hx
    simp only [nearestAt]
    rw [(nearestRegularAt_eq fma dims starts steps vals hG.slice x).2
      ⟨k, by unfold nearRegAxis; rw [linRegAxis_exact_none _ hk]; rfl⟩, hG.checkRegular le_rfl]
    rfl
  | rectilinear grids => exact absurd trivial hx

end

end Interpn
