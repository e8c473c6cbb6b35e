import Verif.Model.Utils
import Verif.Lemmas.Layout
import Verif.Props.GridKinds

/-! C47: `linspace`. C48: `meshgrid`. -/

set_option autoImplicit false
set_option linter.unusedSectionVars false

namespace Interpn
open FloatOps

theorem mapRange_ok {α : Type} (f : Nat → Res α) (h : Nat → α) (hf : ∀ i, f i = .ok (h i)) :
    ∀ k i, mapRange f k i = .ok ((List.range k).map fun j => h (i + j))
  | 0, _ => rfl
  | k + 1, i => by
    rw [mapRange, hf i, Res.ok_bind, mapRange_ok f h hf k (i + 1), Res.ok_bind,
      List.range_succ_eq_map]
    simp only [List.map_cons, List.map_map, Res.pure_eq, Nat.add_zero]
    congr 2
    apply List.map_congr_left
    intro j _
    simp only [Function.comp]
    congr 1; omega

section
variable {T : Type} [FloatOps T]

/-- C47: `linspace` with `n = 0` panics, for every floating-point type. -/
theorem C47_panic (start stop : T) : linspace start stop 0 = .panic := rfl

theorem mapRange_outcomes {α : Type} (f : Nat → Res α) (hf : ∀ i e, f i ≠ .err e) : ∀ k i,
    (mapRange f k i = .panic ↔ ∃ j < k, f (i + j) = .panic) ∧ ∀ e, mapRange f k i ≠ .err e
  | 0, i => by simp [mapRange]
  | k + 1, i => by
    obtain ⟨h1, h2⟩ := mapRange_outcomes f hf k (i + 1)
    have hsplit : (∃ j < k + 1, f (i + j) = .panic) ↔ f i = .panic ∨ ∃ j < k, f (i + 1 + j) = .panic := by
      constructor
      · rintro ⟨j, hj, h⟩
        cases j with
        | zero => exact .inl h
        | succ j => exact .inr ⟨j, by omega, by rw [← h]; congr 1; omega⟩
      · rintro (h | ⟨j, hj, h⟩)
        · exact ⟨0, by omega, h⟩
        · exact ⟨j + 1, by omega, by rw [← h]; congr 1; omega⟩
    rw [hsplit, ← h1, mapRange]
    cases hfi : f i with
    | err e => exact absurd hfi (hf i e)
    | panic => exact ⟨by simp [Res.panic_bind], fun e => by simp [Res.panic_bind]⟩
    | ok a =>
      rw [Res.ok_bind]
      cases hr : mapRange f k (i + 1) with
      | err e => exact absurd hr (h2 e)
      | panic => exact ⟨by simp [Res.panic_bind], fun e => by simp [Res.panic_bind]⟩
      | ok as => exact ⟨by simp [Res.ok_bind, Res.pure_eq], fun e => by simp [Res.ok_bind, Res.pure_eq]⟩

/-- C47: for every floating-point type, `linspace` panics exactly if `n` is zero or one of the numbers
`0, ..., n - 1` does not convert to the type, and otherwise returns a list. -/
theorem C47_outcomes (start stop : T) (n : Nat) :
    (linspace start stop n = .panic ↔ n = 0 ∨ ∃ i < n, (ofUsize i : Option T) = none) ∧
    ∀ e, linspace start stop n ≠ .err e := by
  have hone : ∀ (c : T) i, ((do return start +. (← ofUsizeUnwrap i) *. c) : Res T) = .panic ↔
      (ofUsize i : Option T) = none := fun c i => by
    unfold ofUsizeUnwrap
    cases h : (ofUsize i : Option T) with
    | none => simp [Res.panic_bind]
    | some a => simp [Res.ok_bind, Res.pure_eq]
  have herr : ∀ (c : T) i e, ((do return start +. (← ofUsizeUnwrap i) *. c) : Res T) ≠ .err e :=
    fun c i e => by
    unfold ofUsizeUnwrap
    cases h : (ofUsize i : Option T) with
    | none => simp [Res.panic_bind]
    | some a => simp [Res.ok_bind, Res.pure_eq]
  rcases Nat.eq_zero_or_pos n with rfl | hn
  · exact ⟨by simp [C47_panic], fun e => by simp [C47_panic]⟩
  · have hstep : linspace start stop n = (ofUsizeUnwrap (n - 1) >>= fun m =>
        mapRange (fun i => do return start +. (← ofUsizeUnwrap i) *. ((stop -. start) /. m)) n 0) := by
      unfold linspace
      rw [usub_ok hn, Res.ok_bind]
    rw [hstep]
    cases hm : (ofUsize (n - 1) : Option T) with
    | none =>
      have e : (ofUsizeUnwrap (n - 1) : Res T) = .panic := by unfold ofUsizeUnwrap; rw [hm]
      rw [e, Res.panic_bind]
      exact ⟨by simp only [true_iff]; exact .inr ⟨n - 1, by omega, hm⟩, fun e => by simp⟩
    | some m =>
      have e : (ofUsizeUnwrap (n - 1) : Res T) = .ok m := by unfold ofUsizeUnwrap; rw [hm]
      rw [e, Res.ok_bind]
      obtain ⟨h1, h2⟩ := mapRange_outcomes
        (fun i => do return start +. (← ofUsizeUnwrap i) *. ((stop -. start) /. m)) (herr _) n 0
      refine ⟨h1.trans ?_, h2⟩
      simp only [hone, Nat.zero_add]
      constructor
      · exact .inr
      · rintro (h | h)
        · omega
        · exact h

/-- C47: for every floating-point type, `linspace` with `n ≥ 1` has `n` entries, and entry `i` is
`start + i * ((stop - start) / (n - 1))` evaluated in that arithmetic. -/
theorem C47_entries (hT : TotalOfUsize T) (start stop : T) (n : Nat) (hn : 1 ≤ n)
    (hu : n ≤ usizeMax) :
    ∃ l m, linspace start stop n = .ok l ∧ ofUsize (n - 1) = some m ∧ l.length = n ∧
      ∀ i, i < n → ∃ fi, ofUsize i = some fi ∧
        l[i]? = some (start +. fi *. ((stop -. start) /. m)) := by
  obtain ⟨m, hm⟩ := hT (n - 1) (by omega)
  -- the entries, with an arbitrary value beyond the range that is never used
  have hfi : ∀ i, i < n → ∃ fi : T, ofUsize i = some fi := fun i hi => hT i (by omega)
  have key : ∀ k i, i + k ≤ n → ∃ l : List T,
      mapRange (fun i => do return start +. (← ofUsizeUnwrap i) *. ((stop -. start) /. m)) k i =
        .ok l ∧ l.length = k ∧ ∀ j, j < k → ∃ fi, ofUsize (i + j) = some fi ∧
          l[j]? = some (start +. fi *. ((stop -. start) /. m)) := by
    intro k
    induction k with
    | zero => intro i _; exact ⟨[], rfl, rfl, fun j hj => absurd hj (by omega)⟩
    | succ k ih =>
      intro i hi
      obtain ⟨fi, hf⟩ := hfi i (by omega)
      obtain ⟨l, hl, hlen, hall⟩ := ih (i + 1) (by omega)
      refine ⟨(start +. fi *. ((stop -. start) /. m)) :: l, ?_, by simp [hlen], ?_⟩
      · rw [mapRange, hl]
        simp only [ofUsizeUnwrap, hf]
        rfl
      · intro j hj
        cases j with
        | zero => exact ⟨fi, by simpa using hf, rfl⟩
        | succ j =>
          obtain ⟨fj, h1, h2⟩ := hall j (by omega)
          refine ⟨fj, ?_, by simpa using h2⟩
          rw [← h1]; congr 1; omega
  obtain ⟨l, hl, hlen, hall⟩ := key n 0 (by omega)
  refine ⟨l, m, ?_, hm, hlen, ?_⟩
  · unfold linspace
    rw [usub_ok hn, Res.ok_bind]
    have : (ofUsizeUnwrap (n - 1) : Res T) = .ok m := by unfold ofUsizeUnwrap; rw [hm]
    rw [this, Res.ok_bind]
    exact hl
  · intro i hi
    obtain ⟨fi, h1, h2⟩ := hall i hi
    exact ⟨fi, by simpa using h1, h2⟩

end

section
variable {K : Type} [Field K] [LinearOrder K] [IsStrictOrderedRing K] [FloorRing K]
attribute [local instance] exactOps

/-- C47: in exact arithmetic `linspace` with `n ≥ 2` is the evenly spaced grid from `start` to
`stop`, both included, strictly increasing if `start < stop`. -/
theorem C47_exact (start stop : K) (n : Nat) (hn : 2 ≤ n) :
    ∃ l, linspace start stop n = .ok l ∧ l.length = n ∧
      (∀ i, i < n → l[i]? = some (start + i * (stop - start) / ((n : K) - 1))) ∧
      l[0]? = some start ∧ l[n - 1]? = some stop ∧
      (start < stop → l.Pairwise (· < ·)) := by
  have hm : ((n - 1 : Nat) : K) = (n : K) - 1 := by rw [Nat.cast_sub (by omega), Nat.cast_one]
  have hpos : (0 : K) < (n : K) - 1 := by
    rw [← hm]; exact Nat.cast_pos.2 (by omega)
  have hl : linspace start stop n =
      .ok ((List.range n).map fun i : Nat => start + i * ((stop - start) / ((n : K) - 1))) := by
    unfold linspace
    rw [usub_ok (by omega), Res.ok_bind]
    show (Res.ok ((n - 1 : Nat) : K) >>= _) = _
    rw [Res.ok_bind, mapRange_ok _ (fun i : Nat => start + (i : K) * ((stop - start) / ((n : K) - 1)))]
    · simp only [zero_add]
    · intro i
      rw [hm]
      rfl
  have hall : ∀ i, i < n →
      ((List.range n).map fun i : Nat => start + i * ((stop - start) / ((n : K) - 1)))[i]? =
        some (start + i * (stop - start) / ((n : K) - 1)) := by
    intro i hi
    rw [List.getElem?_map, List.getElem?_range hi, Option.map_some]
    congr 1; ring
  refine ⟨_, hl, by simp, hall, ?_, ?_, ?_⟩
  · rw [hall 0 (by omega)]; simp
  · rw [hall _ (by omega), hm]
    congr 1
    field_simp
    ring
  · intro h
    rw [List.pairwise_map]
    refine List.pairwise_lt_range.imp ?_
    intro a b hab
    have h1 : (a : K) < b := Nat.cast_lt.2 hab
    have h2 : 0 < (stop - start) / ((n : K) - 1) := div_pos (sub_pos.2 h) hpos
    have := mul_lt_mul_of_pos_right h1 h2
    linarith

/-- C47: the result is the regular grid with the same start and step `(stop - start) / (n - 1)`,
as a rectilinear axis. -/
theorem C47_regular (start stop : K) (n : Nat) (hn : 2 ≤ n) :
    linspace start stop n = .ok (uniformGrids (N := 1) (fun _ => n) (fun _ => start)
      (fun _ => (stop - start) / ((n : K) - 1)) 0) := by
  obtain ⟨l, hl, hlen, hall, _⟩ := C47_exact start stop n hn
  rw [hl]
  congr 1
  apply List.ext_getElem?
  intro i
  by_cases hi : i < n
  · rw [hall i hi]
    unfold uniformGrids
    rw [List.getElem?_map, List.getElem?_range hi, Option.map_some]
    congr 1; ring
  · rw [List.getElem?_eq_none (by omega), List.getElem?_eq_none (by simp [uniformGrids]; omega)]

end

/-! ### meshgrid -/

section
variable {T : Type} {N : Nat}

theorem cIndex_succ : ∀ {N : Nat} (dims loc : Fin (N + 1) → Nat),
    cIndex dims loc = loc 0 * (∏ k : Fin N, dims k.succ) +
      cIndex (fun k : Fin N => dims k.succ) (fun k => loc k.succ)
  | 0, dims, loc => by simp [cIndex]
  | N + 1, dims, loc => by
    have h := cIndex_succ (fun k : Fin (N + 1) => dims k.castSucc) (fun k => loc k.castSucc)
    simp only [Fin.castSucc_zero] at h
    rw [Fin.prod_univ_castSucc]
    show cIndex (fun k : Fin (N + 1) => dims k.castSucc) (fun k => loc k.castSucc) *
        dims (Fin.last (N + 1)) + loc (Fin.last (N + 1)) = _ +
      (cIndex (fun k : Fin N => dims k.castSucc.succ) (fun k => loc k.castSucc.succ) *
        dims (Fin.last N).succ + loc (Fin.last N).succ)
    rw [h]
    simp only [Fin.succ_castSucc, Fin.succ_last]
    ring

theorem flatMap_cons_getElem? (L : List (List T)) : ∀ (xs : List T) (i j : Nat),
    j < L.length → (xs.flatMap fun a => L.map (a :: ·))[i * L.length + j]? =
      xs[i]?.bind fun a => L[j]?.map (a :: ·)
  | [], i, j, hj => by simp
  | x :: xs, 0, j, hj => by
    rw [List.flatMap_cons, List.getElem?_append_left (by simpa using hj)]
    simp
  | x :: xs, i + 1, j, hj => by
    rw [List.flatMap_cons, List.getElem?_append_right (by rw [List.length_map]; nlinarith),
      List.length_map, show (i + 1) * L.length + j - L.length = i * L.length + j by
        rw [add_mul, one_mul]; omega, flatMap_cons_getElem? L xs i j hj]
    simp

theorem meshgrid_length : ∀ grids : List (List T),
    (meshgrid grids).length = (grids.map List.length).prod
  | [] => rfl
  | xs :: rest => by
    rw [meshgrid, List.map_cons, List.prod_cons, ← meshgrid_length rest, List.length_flatMap]
    simp [List.sum_replicate]

/-- C48: `meshgrid` lists as many points as there are nodes, and the point at the C-order position
of node `loc` has the coordinates of that node. -/
theorem C48_entries : ∀ {N : Nat} (grids : Fin N → List T),
    (meshgrid (List.ofFn grids)).length = ∏ k, (grids k).length ∧
    ∀ (loc : Fin N → Nat) (hl : ∀ k, loc k < (grids k).length),
      (meshgrid (List.ofFn grids))[cIndex (fun k => (grids k).length) loc]? =
        some (List.ofFn fun k => (grids k)[loc k]'(hl k))
  | 0, grids => ⟨by simp [meshgrid], fun loc hl => by simp [meshgrid, cIndex]⟩
  | N + 1, grids => by
    have hlen : ∀ {N : Nat} (grids : Fin N → List T),
        (meshgrid (List.ofFn grids)).length = ∏ k, (grids k).length := by
      intro N grids
      rw [meshgrid_length, List.map_ofFn, List.prod_ofFn]
      rfl
    refine ⟨hlen grids, fun loc hl => ?_⟩
    obtain ⟨_, ih⟩ := C48_entries fun k : Fin N => grids k.succ
    have ih' := ih (fun k => loc k.succ) fun k => hl k.succ
    rw [List.ofFn_succ, meshgrid, cIndex_succ, ← hlen (fun k : Fin N => grids k.succ),
      flatMap_cons_getElem? _ _ _ _ (by
        rw [hlen]; exact cIndex_lt _ _ fun k => hl k.succ), ih', List.ofFn_succ]
    rw [List.getElem?_eq_getElem (hl 0)]
    rfl

end

section
variable {K : Type} [Field K] [LinearOrder K] [IsStrictOrderedRing K] [FloorRing K] {N : Nat}

/-- C48: hence mapping a function of the coordinates over `meshgrid` yields the value array with
which interpolation at a node returns the function there (multilinear and nearest neighbor, and
multicubic below). `f` takes a point as the list of its coordinates. -/
theorem C48_roundtrip (e : Evaluator) (he : e.Fits N) (fma : Bool) (grids : Fin N → List K)
    (f : List K → K) (hs : IsSlice ((meshgrid (List.ofFn grids)).map f))
    (h2 : ∀ k, 2 ≤ (grids k).length) (hsort : ∀ k, (grids k).Pairwise (· < ·))
    (loc : Fin N → Nat) (hl : ∀ k, loc k < (grids k).length) :
    let vals := (meshgrid (List.ofFn grids)).map f
    let x : Fin N → K := fun k => (grids k)[loc k]'(hl k)
    multilinearAt e fma (.rectilinear grids) vals x = .ok (f (List.ofFn x)) ∧
    nearestAt fma (.rectilinear grids) vals x = .ok (f (List.ofFn x)) ∧
    ((∀ k, 4 ≤ (grids k).length) → ∀ lin,
      multicubicAt e fma (.rectilinear grids) vals lin x = .ok (f (List.ofFn x))) := by
  intro vals x
  obtain ⟨hlen, hent⟩ := C48_entries grids
  have hinc : ∀ k i, i + 1 < (grids k).length → (grids k).getD i 0 < (grids k).getD (i + 1) 0 := by
    intro k i hi
    rw [List.getD_eq_getElem _ _ hi, List.getD_eq_getElem (grids k) _ (n := i) (by omega)]
    exact List.pairwise_iff_getElem.1 (hsort k) i (i + 1) (by omega) hi (by omega)
  have hG : ∀ m, (∀ k, m ≤ (grids k).length) → (Axes.rectilinear grids).Valid m vals := fun m hm =>
    ⟨hs, by show (List.map f _).length = _; rw [List.length_map, hlen]; rfl, hm, hinc⟩
  let g : (Fin N → Nat) → K := fun loc => f (List.ofFn fun k => (grids k).getD (loc k) 0)
  have hg : Samples (Axes.rectilinear grids).size vals g := by
    intro loc hl
    have := hent loc hl
    show (List.map f _)[_]? = _
    rw [List.getElem?_map]
    show Option.map f ((meshgrid (List.ofFn grids))[cIndex (fun k => (grids k).length) loc]?) = _
    rw [this, Option.map_some]
    congr 3
    funext k
    exact (List.getD_eq_getElem _ _ (hl k)).symm
  have hx : x = fun k => (Axes.rectilinear grids).node k (loc k) :=
    funext fun k => (List.getD_eq_getElem _ _ (hl k)).symm
  have hgl : g loc = f (List.ofFn x) := by rw [hx]; rfl
  rw [← hgl, hx]
  refine ⟨C20_node e he fma _ vals (hG 2 h2) g hg loc hl, ?_, fun h4 lin =>
    C30_node e he fma _ vals lin (hG 4 h4) g hg loc hl⟩
  refine C36_nearest fma _ vals (hG 2 h2) g hg _ trivial loc fun k => ?_
  refine ⟨hl k, fun j hj => ?_, fun j hj => ?_⟩
  · rw [sub_self, abs_zero]; exact abs_nonneg _
  · rw [sub_self, abs_zero]
    exact abs_pos.2 (sub_ne_zero.2 ((hG 2 h2).incr k |>.lt hj (hl k)).ne')

end

section Examples
attribute [local instance] ratOps

example : linspace (1 : ℚ) 4 7 = .ok [1, 3/2, 2, 5/2, 3, 7/2, 4] := by decide +kernel

example : meshgrid [[(1 : ℚ), 2], [3, 4, 5]] = [[1, 3], [1, 4], [1, 5], [2, 3], [2, 4], [2, 5]] := by
  decide +kernel

/-- The round trip on a 2×3 grid. -/
example :
    let grids : Fin 2 → List ℚ := ![[1, 2], [3, 4, 5]]
    let f : List ℚ → ℚ := fun p => p.foldl (fun a b => 2 * a + b ^ 2) 0
    IsSlice ((meshgrid (List.ofFn grids)).map f) ∧ (∀ k, 2 ≤ (grids k).length) ∧
      (∀ k, (grids k).Pairwise (· < ·)) ∧ (∀ k, ![1, 2] k < (grids k).length) ∧
      multilinearAt .flat false (.rectilinear grids) ((meshgrid (List.ofFn grids)).map f) ![2, 5] =
        .ok (f [2, 5]) := by
  intro grids f
  refine ⟨by unfold IsSlice; decide +kernel, ?_⟩
  decide +kernel

end Examples

end Interpn
