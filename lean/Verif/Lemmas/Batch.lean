import Verif.Lemmas.Basic
import Verif.Lemmas.Forms
import Verif.Spec.Batch
import Mathlib.Algebra.BigOperators.Fin

/-! The batch loop. -/

set_option autoImplicit false

namespace Interpn

variable {T : Type} {N : Nat}

/-- Running over a prefix of observations that all succeed. -/
theorem batchLoop_prefix (point : Nat → Res T) (k : Nat) (vs : List T) :
    ∀ (i : Nat) (out : List T), i + vs.length ≤ out.length →
    (∀ j (hj : j < vs.length), point (i + j) = .ok vs[j]) →
    batchLoop point (vs.length + k) i out =
      batchLoop point k (i + vs.length) (out.take i ++ vs ++ out.drop (i + vs.length)) := by
  induction vs with
  | nil => intro i out _ _; simp
  | cons v vs ih =>
    intro i out hlen h
    simp only [List.length_cons] at hlen
    have h0 : point i = .ok v := h 0 (by simp)
    rw [show (v :: vs).length + k = (vs.length + k) + 1 by simp; omega, batchLoop, h0]
    simp only
    rw [if_pos (by omega), ih (i + 1) _ (by simp; omega)]
    · congr 1
      · simp; omega
      · rw [List.take_set, List.drop_set]
        have e1 : i + 1 + vs.length = i + (v :: vs).length := by simp; omega
        rw [e1, if_pos (by simp)]
        have e2 : (List.take (i + 1) out).set i v = List.take i out ++ [v] := by
          have hi : i < out.length := by omega
          have hmin : min i out.length = i := by omega
          rw [← List.take_concat_get' out i hi, List.set_append_right _ _ (by simp)]
          simp [hmin]
        rw [e2]; simp
    · intro j hj
      have := h (j + 1) (by simp; omega)
      rw [show i + 1 + j = i + (j + 1) by omega, this]; simp

/-- All observations succeed. -/
theorem batchLoop_all (point : Nat → Res T) (out vs : List T) (hlen : vs.length = out.length)
    (h : ∀ j (hj : j < vs.length), point j = .ok vs[j]) :
    batchLoop point out.length 0 out = (.ok (), vs) := by
  have := batchLoop_prefix point 0 vs 0 out (by omega) (by simpa using h)
  rw [Nat.add_zero, hlen] at this
  rw [this, batchLoop]
  simp [← hlen]

theorem batchLoop_all_n (point : Nat → Res T) (n : Nat) (out vs : List T) (hn : out.length = n)
    (hlen : vs.length = out.length) (h : ∀ j (hj : j < vs.length), point j = .ok vs[j]) :
    batchLoop point n 0 out = (.ok (), vs) := by
  subst hn; exact batchLoop_all point out vs hlen h

/-- The first failure. -/
theorem batchLoop_fail (point : Nat → Res T) (out vs : List T) (hlen : vs.length < out.length)
    (h : ∀ j (hj : j < vs.length), point j = .ok vs[j]) :
    (∀ e, point vs.length = .err e →
      batchLoop point out.length 0 out = (.err e, vs ++ out.drop vs.length)) ∧
    (point vs.length = .panic →
      batchLoop point out.length 0 out = (.panic, vs ++ out.drop vs.length)) := by
  obtain ⟨k, hk⟩ : ∃ k, out.length = vs.length + (k + 1) := ⟨out.length - vs.length - 1, by omega⟩
  have := batchLoop_prefix point (k + 1) vs 0 out (by omega) (by simpa using h)
  rw [← hk] at this
  rw [this]
  constructor
  · intro e he
    rw [batchLoop, Nat.zero_add, he]; simp
  · intro hp
    rw [batchLoop, Nat.zero_add, hp]; simp

/-- A batch either has results for all observations or a first failing one. -/
theorem batch_cases (point : Nat → Res T) : ∀ n : Nat,
    (∃ vs : List T, vs.length = n ∧ ∀ j (hj : j < vs.length), point j = .ok vs[j]) ∨
    (∃ vs : List T, vs.length < n ∧ (∀ j (hj : j < vs.length), point j = .ok vs[j]) ∧
      ((∃ e, point vs.length = .err e) ∨ point vs.length = .panic))
  | 0 => .inl ⟨[], rfl, by simp⟩
  | n + 1 => by
    rcases batch_cases point n with ⟨vs, hl, hv⟩ | ⟨vs, hl, hv, hf⟩
    · cases hp : point n with
      | ok v =>
        refine .inl ⟨vs ++ [v], by simp [hl], ?_⟩
        intro j hj
        simp only [List.length_append, List.length_singleton] at hj
        by_cases hjn : j < vs.length
        · rw [List.getElem_append_left hjn]; exact hv j hjn
        · have : j = n := by omega
          subst this
          rw [hp, List.getElem_append_right (by omega)]; simp
      | err e => exact .inr ⟨vs, by omega, hv, .inl ⟨e, hl ▸ hp⟩⟩
      | panic => exact .inr ⟨vs, by omega, hv, .inr (hl ▸ hp)⟩
    · exact .inr ⟨vs, by omega, hv, hf⟩

theorem batchLoop_eq_ok_iff (point : Nat → Res T) (out out' : List T) :
    batchLoop point out.length 0 out = (.ok (), out') ↔
      out'.length = out.length ∧ ∀ j (hj : j < out'.length), point j = .ok out'[j] := by
  constructor
  · intro h
    rcases batch_cases point out.length with ⟨vs, hl, hv⟩ | ⟨vs, hl, hv, ⟨e, hf⟩ | hf⟩
    · rw [batchLoop_all point out vs hl hv] at h
      cases h; exact ⟨hl, hv⟩
    · rw [(batchLoop_fail point out vs hl hv).1 e hf] at h; cases h
    · rw [(batchLoop_fail point out vs hl hv).2 hf] at h; cases h
  · rintro ⟨hl, hv⟩; exact batchLoop_all point out out' hl hv

theorem batchLoop_panic (point : Nat → Res T) (out : List T)
    (h : (batchLoop point out.length 0 out).1 = .panic) : ∃ i < out.length, point i = .panic := by
  rcases batch_cases point out.length with ⟨vs, hl, hv⟩ | ⟨vs, hl, hv, ⟨e, hf⟩ | hf⟩
  · rw [batchLoop_all point out vs hl hv] at h; cases h
  · rw [(batchLoop_fail point out vs hl hv).1 e hf] at h; cases h
  · exact ⟨_, hl, hf⟩

/-- The batch loop only depends on the points visited. -/
theorem batchLoop_congr (point point' : Nat → Res T) : ∀ (k i : Nat) (out : List T),
    (∀ j, i ≤ j → j < i + k → point j = point' j) →
    batchLoop point k i out = batchLoop point' k i out
  | 0, _, _, _ => rfl
  | k + 1, i, out, h => by
    rw [batchLoop, batchLoop, h i le_rfl (by omega)]
    cases point' i with
    | ok v =>
      simp only
      split
      · exact batchLoop_congr point point' k (i + 1) _ fun j h1 h2 => h j (by omega) (by omega)
      · rfl
    | err e => rfl
    | panic => rfl

theorem gatherPoint_eq (zero : T) (x : Fin N → List T) (i : Nat) (pt : Fin N → T)
    (h : ∀ k, (x k)[i]? = some (pt k)) : gatherPoint zero x i = .ok pt := by
  unfold gatherPoint
  rw [forRange_eq (fun j => (fun k : Fin N => if k.val < j then pt k else zero))]
  · congr 1; funext k; simp
  · funext k; simp
  · intro j hj
    rw [aget_lt _ hj, Res.ok_bind, lget_of_some (h ⟨j, hj⟩), Res.ok_bind, aset_lt _ hj]
    congr 1; funext k
    by_cases hk : k.val = j
    · subst hk; simp
    · rw [if_neg hk]
      by_cases hlt : k.val < j
      · rw [if_pos hlt, if_pos (by omega)]
      · rw [if_neg hlt, if_neg (by omega)]

theorem interpBatch_mismatch (zero : T) (one : (Fin N → T) → Res T) (x : Fin N → List T)
    (out : List T) (h : ∃ k, (x k).length ≠ out.length) :
    interpBatch zero one x out = (.err "Dimension mismatch", out) := by
  unfold interpBatch
  rw [if_neg]
  obtain ⟨k, hk⟩ := h
  intro hall
  rw [List.all_eq_true] at hall
  have := hall (x k) (by simp)
  simp at this; exact hk this

theorem interpBatch_eq (zero : T) (one : (Fin N → T) → Res T) (x : Fin N → List T)
    (out : List T) (h : ∀ k, (x k).length = out.length) :
    interpBatch zero one x out =
      batchLoop (fun i => do one (← gatherPoint zero x i)) out.length 0 out := by
  unfold interpBatch
  rw [if_pos]
  rw [List.all_eq_true]
  intro l hl
  rw [List.mem_ofFn] at hl
  obtain ⟨k, rfl⟩ := hl
  simpa using h k

theorem interpBatchRec_mismatch [FloatOps T] {M n : Nat} (zero : T) (one : List T → Res T)
    (x : List (List T)) (out : List T)
    (h : x.length ≠ n ∨ ∃ xx ∈ x, xx.length ≠ out.length) :
    interpBatchRec M n zero one x out = (.err "Dimension mismatch", out) := by
  unfold interpBatchRec
  by_cases hn : x.length = n
  · rw [dif_pos hn, if_neg]
    obtain ⟨xx, hx, hl⟩ := h.resolve_left (not_not.2 hn)
    intro hall
    rw [List.all_eq_true] at hall
    have := hall xx hx
    simp at this; exact hl this
  · rw [dif_neg hn]

theorem interpBatchRec_eq [FloatOps T] {M n : Nat} (zero : T) (one : List T → Res T)
    (x : List (List T)) (out : List T) (hM : n ≤ M) (hn : x.length = n)
    (h : ∀ xx ∈ x, xx.length = out.length) :
    interpBatchRec M n zero one x out =
      batchLoop (fun i => do
        let p ← gatherPoint zero (fun k : Fin n => x[k.val]'(by omega)) i
        one (List.ofFn p)) out.length 0 out := by
  unfold interpBatchRec
  rw [dif_pos hn, if_pos, if_pos hM]
  rw [List.all_eq_true]
  intro l hl
  simpa using h l hl

/-! ### The batch specification -/

theorem PointAt.unique {x : Fin N → List T} {i : Nat} {p q : Fin N → T} (hp : PointAt x i p)
    (hq : PointAt x i q) : p = q := by
  funext k; exact Option.some.inj ((hp k).symm.trans (hq k))

theorem pointAt_exists {x : Fin N → List T} {i n : Nat} (hl : ∀ k, (x k).length = n)
    (hi : i < n) : ∃ pt, PointAt x i pt := by
  refine ⟨fun k => (x k)[i]'(by rw [hl k]; exact hi), fun k => ?_⟩
  rw [List.getElem?_eq_getElem]

theorem point_eq (zero : T) (one : (Fin N → T) → Res T) {x : Fin N → List T} {i : Nat}
    {pt : Fin N → T} (hp : PointAt x i pt) :
    (do one (← gatherPoint zero x i)) = one pt := by
  rw [gatherPoint_eq zero x i pt hp, Res.ok_bind]

theorem resultsOf_iff (zero : T) (one : (Fin N → T) → Res T) {x : Fin N → List T} {n : Nat}
    (hl : ∀ k, (x k).length = n) {vs : List T} (hn : vs.length ≤ n) :
    ResultsOf one x vs ↔
      ∀ j (hj : j < vs.length), (do one (← gatherPoint zero x j)) = .ok vs[j] := by
  constructor
  · intro h j hj
    obtain ⟨pt, hp, ho⟩ := h j vs[j] (List.getElem?_eq_getElem hj)
    rw [point_eq zero one hp, ho]
  · intro h i v hv
    obtain ⟨hi, rfl⟩ := List.getElem?_eq_some_iff.1 hv
    obtain ⟨pt, hp⟩ := pointAt_exists hl (i := i) (by omega)
    exact ⟨pt, hp, by rw [← point_eq zero one hp]; exact h i hi⟩

theorem interpBatch_spec (zero : T) (one : (Fin N → T) → Res T) :
    BatchSpec one (interpBatch zero one) where
  mismatch x out h := interpBatch_mismatch zero one x out h
  ok_iff x out out' := by
    constructor
    · intro h
      by_cases hl : ∀ k, (x k).length = out.length
      · rw [interpBatch_eq zero one x out hl, batchLoop_eq_ok_iff] at h
        exact ⟨hl, h.1, (resultsOf_iff zero one hl (le_of_eq h.1)).2 h.2⟩
      · push Not at hl
        rw [interpBatch_mismatch zero one x out hl] at h; cases h
    · rintro ⟨hl, h1, h2⟩
      rw [interpBatch_eq zero one x out hl, batchLoop_eq_ok_iff]
      exact ⟨h1, (resultsOf_iff zero one hl (le_of_eq h1)).1 h2⟩
  first_err x out vs pt e hl hlt hr hp he := by
    rw [interpBatch_eq zero one x out hl]
    exact (batchLoop_fail _ out vs hlt ((resultsOf_iff zero one hl hlt.le).1 hr)).1 e
      (by rw [point_eq zero one hp, he])
  first_panic x out vs pt hl hlt hr hp he := by
    rw [interpBatch_eq zero one x out hl]
    exact (batchLoop_fail _ out vs hlt ((resultsOf_iff zero one hl hlt.le).1 hr)).2
      (by rw [point_eq zero one hp, he])
  total x out hl := by
    rcases batch_cases (fun i => do one (← gatherPoint zero x i)) out.length with
      ⟨vs, h1, h2⟩ | ⟨vs, h1, h2, h3⟩
    · exact .inl ⟨vs, h1, (resultsOf_iff zero one hl (le_of_eq h1)).2 h2⟩
    · obtain ⟨pt, hp⟩ := pointAt_exists hl h1
      refine .inr ⟨vs, pt, h1, (resultsOf_iff zero one hl h1.le).2 h2, hp, ?_⟩
      simpa only [point_eq zero one hp] using h3

/-- Batches with a run-time number of axes reduce to the other kind. -/
theorem pointAtL_iff {x : List (List T)} {i : Nat} {pt : List T} :
    PointAtL x i pt ↔ ∃ p : Fin x.length → T, PointAt (fun k => x[k.val]) i p ∧ pt = List.ofFn p := by
  unfold PointAtL PointAt
  constructor
  · intro h
    have hlen : x.length = pt.length := by simpa using congrArg List.length h
    refine ⟨fun k => pt[k.val]'(by omega), fun k => ?_, ?_⟩
    · have := congrArg (fun l => l[k.val]?) h
      simp only [List.getElem?_map, List.getElem?_eq_getElem k.isLt,
        List.getElem?_eq_getElem (hlen ▸ k.isLt : k.val < pt.length), Option.map_some,
        Option.some.injEq] at this
      exact this
    · apply List.ext_getElem (by simp [hlen])
      intro j h1 h2; simp
  · rintro ⟨p, hp, rfl⟩
    apply List.ext_getElem (by simp)
    intro j h1 h2
    have := hp ⟨j, by simpa using h1⟩
    simpa using this

theorem resultsOfL_iff {one : List T → Res T} {x : List (List T)} {vs : List T} :
    ResultsOfL one x vs ↔
      ResultsOf (fun p : Fin x.length → T => one (List.ofFn p)) (fun k => x[k.val]) vs := by
  unfold ResultsOfL ResultsOf
  constructor
  · intro h i v hv
    obtain ⟨pt, hp, ho⟩ := h i v hv
    obtain ⟨p, hp', rfl⟩ := pointAtL_iff.1 hp
    exact ⟨p, hp', ho⟩
  · intro h i v hv
    obtain ⟨p, hp, ho⟩ := h i v hv
    exact ⟨_, pointAtL_iff.2 ⟨p, hp, rfl⟩, ho⟩

theorem interpBatchRec_eq' [FloatOps T] {M n : Nat} (zero : T) (one : List T → Res T)
    (x : List (List T)) (out : List T) (hM : n ≤ M) (hn : x.length = n)
    (h : ∀ xx ∈ x, xx.length = out.length) :
    interpBatchRec M n zero one x out =
      interpBatch zero (fun p : Fin x.length → T => one (List.ofFn p)) (fun k => x[k.val]) out := by
  subst hn
  rw [interpBatchRec_eq zero one x out hM rfl h, interpBatch_eq]
  intro k; exact h _ (List.getElem_mem _)

theorem interpBatchRec_spec [FloatOps T] {M n : Nat} (hM : n ≤ M) (zero : T)
    (one : List T → Res T) : BatchSpecL n one (interpBatchRec M n zero one) where
  mismatch x out h := interpBatchRec_mismatch zero one x out h
  ok_iff x out out' := by
    by_cases hl : x.length = n ∧ ∀ xx ∈ x, xx.length = out.length
    · rw [interpBatchRec_eq' zero one x out hM hl.1 hl.2, (interpBatch_spec _ _).ok_iff,
        resultsOfL_iff]
      constructor
      · rintro ⟨_, h1, h2⟩; exact ⟨hl.1, hl.2, h1, h2⟩
      · rintro ⟨_, _, h1, h2⟩; exact ⟨fun k => hl.2 _ (List.getElem_mem _), h1, h2⟩
    · rw [interpBatchRec_mismatch zero one x out]
      · constructor
        · intro h; cases h
        · rintro ⟨h1, h2, _⟩; exact absurd ⟨h1, h2⟩ hl
      · by_cases h : x.length = n
        · right
          by_contra hc; push Not at hc
          exact hl ⟨h, hc⟩
        · exact .inl h
  first_err x out vs pt e hn hl hlt hr hp he := by
    obtain ⟨p, hp', rfl⟩ := pointAtL_iff.1 hp
    rw [interpBatchRec_eq' zero one x out hM hn hl]
    exact (interpBatch_spec _ _).first_err _ out vs p e (fun k => hl _ (List.getElem_mem _)) hlt
      (resultsOfL_iff.1 hr) hp' he
  first_panic x out vs pt hn hl hlt hr hp he := by
    obtain ⟨p, hp', rfl⟩ := pointAtL_iff.1 hp
    rw [interpBatchRec_eq' zero one x out hM hn hl]
    exact (interpBatch_spec _ _).first_panic _ out vs p (fun k => hl _ (List.getElem_mem _)) hlt
      (resultsOfL_iff.1 hr) hp' he
  total x out hn hl := by
    rcases (interpBatch_spec zero (fun p : Fin x.length → T => one (List.ofFn p))).total
      (fun k => x[k.val]) out (fun k => hl _ (List.getElem_mem _)) with
      ⟨vs, h1, h2⟩ | ⟨vs, p, h1, h2, h3, h4⟩
    · exact .inl ⟨vs, h1, resultsOfL_iff.2 h2⟩
    · exact .inr ⟨vs, _, h1, resultsOfL_iff.2 h2, pointAtL_iff.2 ⟨p, h3, rfl⟩, h4⟩

/-- A batch panics only if one of its points does. -/
theorem BatchSpec.panic_at {one : (Fin N → T) → Res T}
    {interp : (Fin N → List T) → List T → Res Unit × List T} (h : BatchSpec one interp)
    {x : Fin N → List T} {out : List T} (hp : (interp x out).1 = .panic) :
    ∃ i pt, PointAt x i pt ∧ one pt = .panic := by
  by_cases hl : ∀ k, (x k).length = out.length
  · rcases h.total x out hl with ⟨vs, h1, h2⟩ | ⟨vs, pt, h1, h2, h3, ⟨e, h4⟩ | h4⟩
    · rw [(h.ok_iff x out vs).2 ⟨hl, h1, h2⟩] at hp; cases hp
    · rw [h.first_err x out vs pt e hl h1 h2 h3 h4] at hp; cases hp
    · exact ⟨_, pt, h3, h4⟩
  · push Not at hl
    rw [h.mismatch x out hl] at hp; cases hp

theorem BatchSpec.panic {one : (Fin N → T) → Res T}
    {interp : (Fin N → List T) → List T → Res Unit × List T} (h : BatchSpec one interp)
    {x : Fin N → List T} {out : List T} (hp : (interp x out).1 = .panic) :
    ∃ pt, one pt = .panic := by
  obtain ⟨_, pt, _, hpt⟩ := h.panic_at hp
  exact ⟨pt, hpt⟩

theorem BatchSpecL.panic_at {n : Nat} {one : List T → Res T}
    {interp : List (List T) → List T → Res Unit × List T} (h : BatchSpecL n one interp)
    {x : List (List T)} {out : List T} (hp : (interp x out).1 = .panic) :
    ∃ i pt, PointAtL x i pt ∧ one pt = .panic := by
  by_cases hl : x.length = n ∧ ∀ xx ∈ x, xx.length = out.length
  · rcases h.total x out hl.1 hl.2 with ⟨vs, h1, h2⟩ | ⟨vs, pt, h1, h2, h3, ⟨e, h4⟩ | h4⟩
    · rw [(h.ok_iff x out vs).2 ⟨hl.1, hl.2, h1, h2⟩] at hp; cases hp
    · rw [h.first_err x out vs pt e hl.1 hl.2 h1 h2 h3 h4] at hp; cases hp
    · exact ⟨_, pt, h3, h4⟩
  · rw [h.mismatch x out] at hp
    · cases hp
    · by_cases h : x.length = n
      · right
        by_contra hc; push Not at hc
        exact hl ⟨h, hc⟩
      · exact .inl h

theorem BatchSpecL.panic {n : Nat} {one : List T → Res T}
    {interp : List (List T) → List T → Res Unit × List T} (h : BatchSpecL n one interp)
    {x : List (List T)} {out : List T} (hp : (interp x out).1 = .panic) :
    ∃ pt, one pt = .panic := by
  obtain ⟨_, pt, _, hpt⟩ := h.panic_at hp
  exact ⟨pt, hpt⟩

end Interpn
