import Verif.Lemmas.PythonLayout
import Verif.Lemmas.RatOps
import Verif.Props.PythonShapes

/-! C101: memory layout of numpy arrays in the Python interface. -/

set_option autoImplicit false
set_option linter.unusedSectionVars false

namespace Interpn
open FloatOps

variable {F32 F64 X : Type} [FloatOps F32] [FloatOps F64]

/-! ### Where the elements of an array are -/

private theorem flatMap_get {β : Type} (f : Nat → List β) (m : Nat) :
    ∀ n, (∀ i < n, (f i).length = m) → ((List.range n).flatMap f).length = n * m ∧
      ∀ i j, i < n → j < m → ((List.range n).flatMap f)[i * m + j]? = (f i)[j]?
  | 0, _ => ⟨by simp, fun _ _ h => absurd h (by omega)⟩
  | n + 1, h => by
    obtain ⟨h1, h2⟩ := flatMap_get f m n fun i hi => h i (by omega)
    rw [List.range_succ, List.flatMap_append, List.flatMap_singleton]
    refine ⟨by rw [List.length_append, h1, h n (by omega), Nat.succ_mul], fun i j hi hj => ?_⟩
    rcases Nat.lt_or_ge i n with h3 | h3
    · have : i * m + j < n * m := by
        calc i * m + j < i * m + m := by omega
          _ = (i + 1) * m := by ring
          _ ≤ n * m := Nat.mul_le_mul_right m h3
      rw [List.getElem?_append_left (by omega)]
      exact h2 i j h3 hj
    · obtain rfl : i = n := by omega
      rw [List.getElem?_append_right (by omega), h1]
      congr 1
      omega

private theorem flatIndex_lt : ∀ {shape ix : List Nat}, List.Forall₂ (· < ·) ix shape →
    flatIndex shape ix < shape.prod
  | [], _, h => by cases h; simp [flatIndex]
  | n :: shape, _, h => by
    cases h with
    | cons hi h =>
      rename_i i ix
      have := flatIndex_lt h
      rw [flatIndex, List.prod_cons]
      calc i * shape.prod + flatIndex shape ix < i * shape.prod + shape.prod := by omega
        _ = (i + 1) * shape.prod := by ring
        _ ≤ n * shape.prod := Nat.mul_le_mul_right _ hi

private theorem positionsFrom_get : ∀ {shape ix : List Nat} {strides : List Int} (off : Int),
    shape.length = strides.length → List.Forall₂ (· < ·) ix shape →
    (Strided.positionsFrom off shape strides)[flatIndex shape ix]? =
      some (off + (List.zipWith (fun (i : Nat) (s : Int) => i * s) ix strides).sum)
  | [], _, strides, off, _, h => by cases h; simp [Strided.positionsFrom, flatIndex]
  | n :: shape, _, [], off, hl, h => by simp at hl
  | n :: shape, _, s :: strides, off, hl, h => by
    cases h with
    | cons hi h =>
      rename_i i ix
      have hl' : shape.length = strides.length := by simpa using hl
      rw [Strided.positionsFrom, flatIndex,
        (flatMap_get _ shape.prod n fun j _ => Strided.positionsFrom_length shape strides _ hl').2 i _ hi
          (flatIndex_lt h), positionsFrom_get _ hl' h]
      simp only [List.zipWith_cons_cons, List.sum_cons, add_assoc]

private theorem filterMap_get {β γ : Type} (f : β → Option γ) : ∀ (l : List β),
    (∀ b ∈ l, (f b).isSome) → ∀ i : Nat, (l.filterMap f)[i]? = l[i]?.bind f
  | [], _, i => by simp
  | b :: l, h, i => by
    obtain ⟨c, hc⟩ := Option.isSome_iff_exists.1 (h b (by simp))
    rw [List.filterMap_cons_some hc]
    cases i with
    | zero => simp [hc]
    | succ i =>
      simp only [List.getElem?_cons_succ]
      exact filterMap_get f l (fun b hb => h b (by simp [hb])) i

/-- C101: what Python sees. The element with index `ix` of an array is the one at its place in the
buffer, whatever the offset and the strides (negative ones, zero for broadcast axes). -/
theorem C101_elements {α : Type} (a : Strided α) (h : a.WellFormed) (ix : List Nat)
    (hix : List.Forall₂ (· < ·) ix a.shape) :
    0 ≤ a.place ix ∧ a.place ix < a.buffer.length ∧
      a.contents[flatIndex a.shape ix]? = a.buffer[(a.place ix).toNat]? := by
  have hp : a.positions[flatIndex a.shape ix]? = some (a.place ix) :=
    positionsFrom_get _ h.1 hix
  obtain ⟨h0, h1⟩ := h.2 _ (List.mem_of_getElem? hp)
  refine ⟨h0, h1, ?_⟩
  unfold Strided.contents
  rw [filterMap_get _ _ (fun p hp => by
    obtain ⟨h0, h1⟩ := h.2 p hp
    have : p.toNat < a.buffer.length := by omega
    simp [h0, this]), hp]
  simp [h0]

/-- The element (1, 2) of a transposed and reversed view. -/
example : let a : Strided Nat := ⟨[0, 10, 20, 30, 40, 50], 4, [2, 3], [1, -2]⟩
    a.WellFormed ∧ List.Forall₂ (· < ·) [1, 2] a.shape ∧ a.place [1, 2] = 1 ∧
      a.contents = [40, 20, 0, 50, 30, 10] := by
  refine ⟨?_, ?_, by decide, by decide⟩
  · unfold Strided.WellFormed; decide
  · exact .cons (by decide) (.cons (by decide) .nil)

/-! ### Auxiliary facts -/

private theorem strided_zeros {α : Type} (a : Strided α) (z : α) :
    (⟨List.replicate a.shape.prod z, 0, a.shape, Strided.cStrides a.shape⟩ : Strided α).WellFormed ∧
    (⟨List.replicate a.shape.prod z, 0, a.shape, Strided.cStrides a.shape⟩ : Strided α).contents =
      List.replicate a.shape.prod z := by
  refine ⟨Strided.wellFormed_cStrides _ _ _ (.inl (by simp)), ?_⟩
  rw [Strided.contents_cStrides]
  simp

private theorem zerosLike_seen (np : Numpy F32 F64 X) (a : MemArray F32 F64 X) (h : a.WellFormed) :
    (a.zerosLike np).seen = a.seen.zerosLike np ∧ (a.zerosLike np).WellFormed := by
  cases a with
  | f32 a =>
    obtain ⟨h1, h2⟩ := strided_zeros a (zero : F32)
    refine ⟨?_, h1⟩
    simp only [MemArray.seen, MemArray.zerosLike, MemArray.shape, MemArray.contents, h2,
      NdArray.zerosLike, NpArray.zerosLike, a.contents_length h]
  | f64 a =>
    obtain ⟨h1, h2⟩ := strided_zeros a (zero : F64)
    refine ⟨?_, h1⟩
    simp only [MemArray.seen, MemArray.zerosLike, MemArray.shape, MemArray.contents, h2,
      NdArray.zerosLike, NpArray.zerosLike, a.contents_length h]
  | other a =>
    obtain ⟨h1, h2⟩ := strided_zeros a np.zeroX
    refine ⟨?_, h1⟩
    simp only [MemArray.seen, MemArray.zerosLike, MemArray.shape, MemArray.contents, h2,
      NdArray.zerosLike, NpArray.zerosLike, a.contents_length h]

private theorem memOutOr_seen (np : Numpy F32 F64 X) (nx : NumpyX X)
    (out : Option (MemArray F32 F64 X)) (obs : List (MemArray F32 F64 X))
    (ho : ∀ a ∈ obs, a.WellFormed) (hout : ∀ a ∈ out, a.WellFormed) :
    npOutOr np nx (out.map MemArray.seen) (obs.map MemArray.seen) =
      (memOutOr np nx out obs).map MemArray.seen ∧
    ∀ a, memOutOr np nx out obs = .ok a → a.WellFormed := by
  cases obs with
  | nil =>
    cases out with
    | none => exact ⟨rfl, fun a h => by cases h⟩
    | some a =>
      unfold npOutOr memOutOr
      simp only [Option.map_some, List.map_nil]
      change ((a.contents.truth np nx >>= _) =
        (a.contents.truth np nx >>= _ : Except PyExc _).map _) ∧ _
      cases a.contents.truth np nx with
      | error e => exact ⟨rfl, fun b h => by cases h⟩
      | ok b =>
        cases b with
        | true => exact ⟨rfl, fun b h => by cases h; exact hout a rfl⟩
        | false => exact ⟨rfl, fun b h => by cases h⟩
  | cons o rest =>
    obtain ⟨h1, h2⟩ := zerosLike_seen np o (ho o (by simp))
    cases out with
    | none =>
      refine ⟨?_, fun a h => by cases h; exact h2⟩
      change Except.ok (o.seen.zerosLike np) = Except.ok (o.zerosLike np).seen
      rw [h1]
    | some a =>
      unfold npOutOr memOutOr
      simp only [Option.map_some, List.map_cons]
      change ((a.contents.truth np nx >>= _) =
        (a.contents.truth np nx >>= _ : Except PyExc _).map _) ∧ _
      cases a.contents.truth np nx with
      | error e => exact ⟨rfl, fun b h => by cases h⟩
      | ok b =>
        cases b with
        | true => exact ⟨rfl, fun b h => by cases h; exact hout a rfl⟩
        | false =>
          refine ⟨?_, fun a h => by cases h; exact h2⟩
          change Except.ok (o.seen.zerosLike np) = Except.ok (o.zerosLike np).seen
          rw [h1]

private theorem map_ravel (l : List (MemArray F32 F64 X)) (h : ∀ a ∈ l, a.WellFormed) :
    (∀ a ∈ l.map (fun x => x.ravel.asContiguous), a.Good) ∧
    (l.map fun x => x.ravel.asContiguous).map MemArray.contents =
      (l.map MemArray.seen).map NdArray.contents := by
  constructor
  · intro a ha
    obtain ⟨b, hb, rfl⟩ := List.mem_map.1 ha
    rw [MemArray.asContiguous_good _ (b.good_ravel (h b hb)).1]
    exact (b.good_ravel (h b hb)).1
  · rw [List.map_map, List.map_map]
    apply List.map_congr_left
    intro b hb
    change b.ravel.asContiguous.contents = b.contents
    rw [MemArray.asContiguous_good _ (b.good_ravel (h b hb)).1, (b.good_ravel (h b hb)).2]

private theorem write_reshape {α : Type} (a : Strided α) (h : a.WellFormed) (r : List α)
    (hr : r.length = a.contents.length) : ((a.ravel.write r).reshape a.shape).contents = r := by
  obtain ⟨h1, h2, h3, h4⟩ := Strided.ravel_spec a h
  have hlen : r.length = a.ravel.shape.prod := by
    rw [hr, Strided.contents_length a h, h3]; simp
  obtain ⟨w1, w2, w3, w4⟩ := Strided.write_spec a.ravel h2 h4 r hlen
  rw [Strided.reshape_contents _ w2.1 h4, w1]
  rw [w3.2.1, h3]; simp

/-! ### The function `interpn` -/

/-- C101: the function `interpn` sees the elements of its arguments only, not how they lie in memory:
strided, reversed, transposed and broadcast views give what contiguous copies give, the exceptions
included. -/
theorem C101_interpn (np : Numpy F32 F64 X) (nx : NumpyX X) (fma : Bool)
    (obs grids : List (MemArray F32 F64 X)) (vals : MemArray F32 F64 X) (method : String)
    (out : Option (MemArray F32 F64 X)) (lin assumeRegular checkB : Bool) (atol : F64)
    (ho : ∀ a ∈ obs, a.WellFormed) (hg : ∀ a ∈ grids, a.WellFormed) (hv : vals.WellFormed)
    (hout : ∀ a ∈ out, a.WellFormed) :
    (memInterpn np nx fma obs grids vals method out lin assumeRegular checkB atol).map
        (fun r => (r.1, r.2.seen)) =
      npInterpn np nx fma (obs.map MemArray.seen) (grids.map MemArray.seen) vals.seen method
        (out.map MemArray.seen) lin assumeRegular checkB atol := by
  obtain ⟨e1, e2⟩ := memOutOr_seen np nx out obs ho hout
  obtain ⟨o1, o2⟩ := map_ravel obs ho
  obtain ⟨g1, g2⟩ := map_ravel grids hg
  unfold memInterpn npInterpn
  rw [e1]
  cases hO : memOutOr np nx out obs with
  | error e => rfl
  | ok o =>
    have hw := e2 o hO
    have hgo := o.good_ravel hw
    simp only [show Except.map MemArray.seen (Except.ok o) = (.ok o.seen : Except PyExc _) from rfl,
      ok_bind']
    have hvr := MemArray.asContiguous_good _ (vals.good_ravel hv).1
    rw [hvr]
    cases vals with
    | other v => rfl
    | f64 v =>
      obtain ⟨v1, v2⟩ := v.good_ravel hv
      change (memInterpn64 np nx fma _ _ v.ravel _ _ _ _ _ _ >>= _ : Except PyExc _).map _ = _
      rw [memInterpn64_good np nx fma _ _ v.ravel method o.ravel lin assumeRegular checkB atol o1 g1 v1
        hgo.1, o2, g2, v2, hgo.2]
      change _ = (npInterpn64 np nx fma ((obs.map MemArray.seen).map NdArray.contents)
        ((grids.map MemArray.seen).map NdArray.contents) v.contents method o.contents lin assumeRegular
        checkB atol >>= _)
      cases hN : npInterpn64 np nx fma ((obs.map MemArray.seen).map NdArray.contents)
        ((grids.map MemArray.seen).map NdArray.contents) v.contents method o.contents lin assumeRegular
        checkB atol with
      | error e => rfl
      | ok q =>
        obtain ⟨call, r⟩ := q
        obtain ⟨l, hl1, hl2⟩ := npInterpn64_length hN
        cases o with
        | f32 a => cases hl1
        | other a => cases hl1
        | f64 a =>
          cases hl1
          simp only [Except.map, ok_bind', MemArray.ravel, MemArray.strided64, MemArray.shape]
          change Except.ok (call, (⟨a.shape, .f64 ((a.ravel.write r).reshape a.shape).contents⟩ :
            NdArray F32 F64 X)) = Except.ok (call, ⟨a.shape, .f64 r⟩)
          rw [write_reshape a hw r hl2]
    | f32 v =>
      obtain ⟨v1, v2⟩ := v.good_ravel hv
      change (memInterpn32 np nx fma _ _ v.ravel _ _ _ _ _ _ >>= _ : Except PyExc _).map _ = _
      rw [memInterpn32_good np nx fma _ _ v.ravel method o.ravel lin assumeRegular checkB atol o1 g1 v1
        hgo.1, o2, g2, v2, hgo.2]
      change _ = (npInterpn32 np nx fma ((obs.map MemArray.seen).map NdArray.contents)
        ((grids.map MemArray.seen).map NdArray.contents) v.contents method o.contents lin assumeRegular
        checkB atol >>= _)
      cases hN : npInterpn32 np nx fma ((obs.map MemArray.seen).map NdArray.contents)
        ((grids.map MemArray.seen).map NdArray.contents) v.contents method o.contents lin assumeRegular
        checkB atol with
      | error e => rfl
      | ok q =>
        obtain ⟨call, r⟩ := q
        obtain ⟨l, hl1, hl2⟩ := npInterpn32_length hN
        cases o with
        | f64 a => cases hl1
        | other a => cases hl1
        | f32 a =>
          cases hl1
          simp only [Except.map, ok_bind', MemArray.ravel, MemArray.strided32, MemArray.shape]
          change Except.ok (call, (⟨a.shape, .f32 ((a.ravel.write r).reshape a.shape).contents⟩ :
            NdArray F32 F64 X)) = Except.ok (call, ⟨a.shape, .f32 r⟩)
          rw [write_reshape a hw r hl2]

private theorem one_element {α : Type} (a : Strided α) (h : a.WellFormed)
    (h1 : a.contents.length = 1) : a.cContiguous = true := by
  rw [Strided.contents_length a h] at h1
  have : ∀ (sh : List Nat) (st : List Int), sh.length = st.length → sh.prod = 1 →
      Strided.cOrdered sh st = true := by
    intro sh
    induction sh with
    | nil => intro st _ _; rfl
    | cons n sh ih =>
      intro st hl hp
      cases st with
      | nil => simp at hl
      | cons s st =>
        simp only [List.prod_cons] at hp
        have hn : n = 1 := Nat.eq_one_of_mul_eq_one_right hp
        subst hn
        simp only [one_mul] at hp
        simp [Strided.cOrdered, ih st (by simpa using hl) hp]
  unfold Strided.cContiguous
  rw [this _ _ h.1 h1, Bool.or_true]

private theorem write_one {α : Type} (a : Strided α) (h : a.WellFormed) (h1 : a.contents.length = 1)
    (r : List α) (hr : r.length = a.contents.length) :
    a.SameOutside ((a.ravel.write r).reshape a.shape) ∧
      a.SamePlaces ((a.ravel.write r).reshape a.shape) := by
  have hc := one_element a h h1
  have hr' : r.length = a.shape.prod := by rw [hr, Strided.contents_length a h]
  obtain ⟨w1, w2, w3, w4⟩ := Strided.write_spec a h hc r hr'
  have e : (a.ravel.write r).reshape a.shape =
      ⟨(a.write r).buffer, a.offset, a.shape, Strided.cStrides a.shape⟩ := by
    unfold Strided.ravel
    rw [if_pos hc]
    rfl
  rw [e]
  refine ⟨w4, rfl, ?_⟩
  rw [Strided.positions_cContiguous a h.1 hc]
  exact Strided.positions_cContiguous _ (Strided.cStrides_length _).symm
    (Strided.cContiguous_of_cStrides _ rfl)

/-- C101: an output array that `interpn` accepts (it has one element, not 0; see C78) is changed in
place, and nothing else in its buffer is: the returned array has the shape of `out`, occupies the same
places, and the rest of the buffer is as before. -/
theorem C101_interpn_out (np : Numpy F32 F64 X) (nx : NumpyX X) (fma : Bool)
    (obs grids : List (MemArray F32 F64 X)) (vals : MemArray F32 F64 X) (method : String)
    (a : MemArray F32 F64 X) (lin assumeRegular checkB : Bool) (atol : F64)
    (ho : ∀ a ∈ obs, a.WellFormed) (hg : ∀ a ∈ grids, a.WellFormed) (hv : vals.WellFormed)
    (ha : a.WellFormed) (ht : a.contents.truth np nx = .ok true) {call : RawCall}
    {r : MemArray F32 F64 X}
    (h : memInterpn np nx fma obs grids vals method (some a) lin assumeRegular checkB atol =
      .ok (call, r)) : a.SamePlaces r ∧ a.SameOutside r := by
  obtain ⟨o1, o2⟩ := map_ravel obs ho
  obtain ⟨g1, g2⟩ := map_ravel grids hg
  have hgo := a.good_ravel ha
  have hO : memOutOr np nx (some a) obs = .ok a := by
    unfold memOutOr
    simp only [ht, ok_bind', if_true]
  unfold memInterpn at h
  rw [hO, ok_bind'] at h
  simp only at h
  rw [MemArray.asContiguous_good _ (vals.good_ravel hv).1] at h
  cases vals with
  | other v => cases h
  | f64 v =>
    obtain ⟨v1, v2⟩ := v.good_ravel hv
    change (memInterpn64 np nx fma _ _ v.ravel _ _ _ _ _ _ >>= _ : Except PyExc _) = _ at h
    rw [memInterpn64_good np nx fma _ _ v.ravel method a.ravel lin assumeRegular checkB atol o1 g1 v1
      hgo.1] at h
    obtain ⟨q, hq, h⟩ := bind_ok h
    cases h
    obtain ⟨⟨c, l⟩, hN, e⟩ : ∃ p, npInterpn64 np nx fma
        ((obs.map fun x => x.ravel.asContiguous).map MemArray.contents)
        ((grids.map fun x => x.ravel.asContiguous).map MemArray.contents) v.ravel.contents method
        a.ravel.contents lin assumeRegular checkB atol = .ok p ∧
        (p.1, a.ravel.strided64.write p.2) = q := by
      cases hN : npInterpn64 np nx fma
        ((obs.map fun x => x.ravel.asContiguous).map MemArray.contents)
        ((grids.map fun x => x.ravel.asContiguous).map MemArray.contents) v.ravel.contents method
        a.ravel.contents lin assumeRegular checkB atol with
      | error e => rw [hN] at hq; cases hq
      | ok p => rw [hN] at hq; cases hq; exact ⟨p, rfl, rfl⟩
    subst e
    obtain ⟨k, hk1, hk2⟩ := npInterpn64_length hN
    rw [hgo.2] at hk1
    cases a with
    | f32 a => cases hk1
    | other a => cases hk1
    | f64 a =>
      cases hk1
      have h1 : a.contents.length = 1 := by
        change NpArray.truth np nx (.f64 a.contents) = _ at ht
        rcases hac : a.contents with _ | ⟨x, _ | ⟨y, r⟩⟩
        · rw [hac] at ht; cases ht
        · rfl
        · rw [hac] at ht; cases ht
      exact (write_one a ha h1 l hk2).symm
  | f32 v =>
    obtain ⟨v1, v2⟩ := v.good_ravel hv
    change (memInterpn32 np nx fma _ _ v.ravel _ _ _ _ _ _ >>= _ : Except PyExc _) = _ at h
    rw [memInterpn32_good np nx fma _ _ v.ravel method a.ravel lin assumeRegular checkB atol o1 g1 v1
      hgo.1] at h
    obtain ⟨q, hq, h⟩ := bind_ok h
    cases h
    obtain ⟨⟨c, l⟩, hN, e⟩ : ∃ p, npInterpn32 np nx fma
        ((obs.map fun x => x.ravel.asContiguous).map MemArray.contents)
        ((grids.map fun x => x.ravel.asContiguous).map MemArray.contents) v.ravel.contents method
        a.ravel.contents lin assumeRegular checkB atol = .ok p ∧
        (p.1, a.ravel.strided32.write p.2) = q := by
      cases hN : npInterpn32 np nx fma
        ((obs.map fun x => x.ravel.asContiguous).map MemArray.contents)
        ((grids.map fun x => x.ravel.asContiguous).map MemArray.contents) v.ravel.contents method
        a.ravel.contents lin assumeRegular checkB atol with
      | error e => rw [hN] at hq; cases hq
      | ok p => rw [hN] at hq; cases hq; exact ⟨p, rfl, rfl⟩
    subst e
    obtain ⟨k, hk1, hk2⟩ := npInterpn32_length hN
    rw [hgo.2] at hk1
    cases a with
    | f64 a => cases hk1
    | other a => cases hk1
    | f32 a =>
      cases hk1
      have h1 : a.contents.length = 1 := by
        change NpArray.truth np nx (.f32 a.contents) = _ at ht
        rcases hac : a.contents with _ | ⟨x, _ | ⟨y, r⟩⟩
        · rw [hac] at ht; cases ht
        · rfl
        · rw [hac] at ht; cases ht
      exact (write_one a ha h1 l hk2).symm

/-! ### Classes -/

private def MemArray.overwrite (o : MemArray F32 F64 X) (r : NpArray F32 F64 X) : MemArray F32 F64 X :=
  match o, r with
  | .f64 a, .f64 r => .f64 (a.write r)
  | .f32 a, .f32 r => .f32 (a.write r)
  | o, _ => o

private def NpArray.SameLength : NpArray F32 F64 X → NpArray F32 F64 X → Prop
  | .f64 a, .f64 b => a.length = b.length
  | .f32 a, .f32 b => a.length = b.length
  | _, _ => False

private theorem own_good {T : Type} (l : List (List T)) : ∀ a ∈ l.map ownArray, a.Good := by
  intro a ha
  obtain ⟨d, -, rfl⟩ := List.mem_map.1 ha
  exact (Strided.good_ownArray d).1

private theorem own_contents {T : Type} (l : List (List T)) :
    (l.map ownArray).map Strided.contents = l := by
  rw [List.map_map]
  conv_rhs => rw [← List.map_id l]
  apply List.map_congr_left
  intro d _
  exact (Strided.good_ownArray d).2

private theorem good_of_contiguous (a : MemArray F32 F64 X) (h : a.WellFormed) (hc : a.Contiguous1) :
    a.Good := by
  cases a with
  | f32 a => exact ⟨h, (a.contiguous1_iff h.1).1 hc⟩
  | f64 a => exact ⟨h, (a.contiguous1_iff h.1).1 hc⟩
  | other a => exact ⟨h, (a.contiguous1_iff h.1).1 hc⟩

private theorem good_zerosLike (np : Numpy F32 F64 X) (a : MemArray F32 F64 X) (h : a.Good) :
    (a.zerosLike np).Good := by
  cases a with
  | f32 a => exact ⟨(strided_zeros a _).1, h.2.1, Strided.cContiguous_of_cStrides _ rfl⟩
  | f64 a => exact ⟨(strided_zeros a _).1, h.2.1, Strided.cContiguous_of_cStrides _ rfl⟩
  | other a => exact ⟨(strided_zeros a _).1, h.2.1, Strided.cContiguous_of_cStrides _ rfl⟩

private theorem memOut_good (np : Numpy F32 F64 X) (obs : List (MemArray F32 F64 X))
    (out : Option (MemArray F32 F64 X)) (h1 : obs ≠ []) (ho : ∀ a ∈ obs, a.Good)
    (hout : ∀ a ∈ out, a.Good) :
    ∃ o, memOut np obs out = .ok o ∧ o.Good ∧
      ndOut np (obs.map MemArray.seen) (out.map MemArray.seen) = .ok o.seen ∧ ∀ a ∈ out, a = o := by
  cases obs with
  | nil => exact absurd rfl h1
  | cons b rest =>
    cases out with
    | some a => exact ⟨a, rfl, hout a rfl, rfl, fun c hc => by cases hc; rfl⟩
    | none =>
      have hb := ho b (by simp)
      have hw : b.WellFormed := by
        cases b with
        | f32 b => exact hb.1
        | f64 b => exact hb.1
        | other b => exact hb.1
      refine ⟨_, rfl, good_zerosLike np b hb, ?_, fun c hc => by cases hc⟩
      change Except.ok (b.seen.zerosLike np) = Except.ok (b.zerosLike np).seen
      rw [(zerosLike_seen np b hw).1]

private theorem good_oneDim (a : MemArray F32 F64 X) (h : a.Good) : a.seen.oneDim = true := by
  cases a with
  | f32 a =>
    change (a.shape.length == 1) = true
    rw [h.2.1]; rfl
  | f64 a =>
    change (a.shape.length == 1) = true
    rw [h.2.1]; rfl
  | other a =>
    change (a.shape.length == 1) = true
    rw [h.2.1]; rfl

private theorem overwrite_spec (o : MemArray F32 F64 X) (h : o.Good) (r : NpArray F32 F64 X)
    (hr : o.contents.SameLength r) :
    (o.overwrite r).seen = ⟨o.shape, r⟩ ∧ o.SameView (o.overwrite r) ∧
      o.SameOutside (o.overwrite r) := by
  cases o with
  | f32 a =>
    cases r with
    | f32 r =>
      obtain ⟨w1, w2, w3, w4⟩ := Strided.write_spec a h.1 h.2.2 r
        (by rw [← Strided.contents_length a h.1]; exact hr.symm)
      exact ⟨congrArg (fun c => (⟨a.shape, NpArray.f32 c⟩ : NdArray F32 F64 X)) w1, w3, w4⟩
    | f64 r => exact hr.elim
    | other r => exact hr.elim
  | f64 a =>
    cases r with
    | f64 r =>
      obtain ⟨w1, w2, w3, w4⟩ := Strided.write_spec a h.1 h.2.2 r
        (by rw [← Strided.contents_length a h.1]; exact hr.symm)
      exact ⟨congrArg (fun c => (⟨a.shape, NpArray.f64 c⟩ : NdArray F32 F64 X)) w1, w3, w4⟩
    | f32 r => exact hr.elim
    | other r => exact hr.elim
  | other a => cases r <;> exact hr.elim

private theorem regular_evalMem_good (np : Numpy F32 F64 X) (fma : Bool) (m : RegularObj F32 F64)
    (obs : List (MemArray F32 F64 X)) (o : MemArray F32 F64 X) (ho : ∀ a ∈ obs, a.Good)
    (hout : o.Good) (out : Option (MemArray F32 F64 X)) (he : memOut np obs out = .ok o) :
    m.evalMem np fma obs out =
      (m.eval np fma (obs.map MemArray.contents) (some o.contents)).map o.overwrite := by
  unfold RegularObj.evalMem RegularObj.eval RegularObj.evalUnchecked
  rw [he]
  simp only [npOut, ok_bind']
  cases m.vals with
  | f64 vals =>
    obtain ⟨ho1, ho2⟩ := extract64_each obs ho
    simp only
    cases pyEach pyUsize m.dims with
    | error e => rfl
    | ok dims =>
    cases m.starts.asF64 with
    | error e => rfl
    | ok starts =>
    cases m.steps.asF64 with
    | error e => rfl
    | ok steps =>
    simp only [ok_bind']
    rw [ho1]
    cases hos : pyEach MemArray.extract64 obs with
    | error e => rfl
    | ok os =>
      rcases extract64_out o hout with ⟨h1, h2, h3⟩ | ⟨h1, h2⟩
      · simp only [h1, h2, ok_bind', Except.map]
        rw [memRawRegular_good fma m.kind.method dims starts steps (ownArray vals) m.kind.lin os
          o.strided64 (Strided.good_ownArray vals).1 (ho2 os hos) h3,
          (Strided.good_ownArray vals).2]
        obtain ⟨a, rfl⟩ : ∃ a, o = .f64 a := by
          cases o with
          | f64 a => exact ⟨a, rfl⟩
          | f32 a => cases h1
          | other a => cases h1
        cases rawRegular fma m.kind.method dims starts steps vals m.kind.lin (os.map Strided.contents)
          (MemArray.f64 a : MemArray F32 F64 X).strided64.contents <;> rfl
      · simp only [h1, h2]; rfl
  | f32 vals =>
    obtain ⟨ho1, ho2⟩ := extract32_each obs ho
    simp only
    cases pyEach pyUsize m.dims with
    | error e => rfl
    | ok dims =>
    cases m.starts.asF32 with
    | error e => rfl
    | ok starts =>
    cases m.steps.asF32 with
    | error e => rfl
    | ok steps =>
    simp only [ok_bind']
    rw [ho1]
    cases hos : pyEach MemArray.extract32 obs with
    | error e => rfl
    | ok os =>
      rcases extract32_out o hout with ⟨h1, h2, h3⟩ | ⟨h1, h2⟩
      · simp only [h1, h2, ok_bind', Except.map]
        rw [memRawRegular_good fma m.kind.method dims starts steps (ownArray vals) m.kind.lin os
          o.strided32 (Strided.good_ownArray vals).1 (ho2 os hos) h3,
          (Strided.good_ownArray vals).2]
        obtain ⟨a, rfl⟩ : ∃ a, o = .f32 a := by
          cases o with
          | f32 a => exact ⟨a, rfl⟩
          | f64 a => cases h1
          | other a => cases h1
        cases rawRegular fma m.kind.method dims starts steps vals m.kind.lin (os.map Strided.contents)
          (MemArray.f32 a : MemArray F32 F64 X).strided32.contents <;> rfl
      · simp only [h1, h2]; rfl

private theorem regular_eval_length {np : Numpy F32 F64 X} {fma : Bool} {m : RegularObj F32 F64}
    {obs : List (NpArray F32 F64 X)} {o r : NpArray F32 F64 X}
    (h : m.eval np fma obs (some o) = .ok r) : o.SameLength r := by
  unfold RegularObj.eval RegularObj.evalUnchecked at h
  simp only [npOut, ok_bind'] at h
  cases hv : m.vals with
  | f64 vals =>
    rw [hv] at h
    simp only at h
    obtain ⟨dims, -, h⟩ := bind_ok h
    obtain ⟨starts, -, h⟩ := bind_ok h
    obtain ⟨steps, -, h⟩ := bind_ok h
    obtain ⟨os, -, h⟩ := bind_ok h
    obtain ⟨l, hl, h⟩ := bind_ok h
    obtain ⟨q, hq, h⟩ := bind_ok h
    cases h
    cases o with
    | f64 d => cases hl; exact (rawRegular_length hq).symm
    | f32 d => cases hl
    | other d => cases hl
  | f32 vals =>
    rw [hv] at h
    simp only at h
    obtain ⟨dims, -, h⟩ := bind_ok h
    obtain ⟨starts, -, h⟩ := bind_ok h
    obtain ⟨steps, -, h⟩ := bind_ok h
    obtain ⟨os, -, h⟩ := bind_ok h
    obtain ⟨l, hl, h⟩ := bind_ok h
    obtain ⟨q, hq, h⟩ := bind_ok h
    cases h
    cases o with
    | f32 d => cases hl; exact (rawRegular_length hq).symm
    | f64 d => cases hl
    | other d => cases hl

private theorem rectilinear_evalMem_good (np : Numpy F32 F64 X) (fma : Bool) (m : RectilinearObj F32 F64)
    (obs : List (MemArray F32 F64 X)) (o : MemArray F32 F64 X) (ho : ∀ a ∈ obs, a.Good)
    (hout : o.Good) (out : Option (MemArray F32 F64 X)) (he : memOut np obs out = .ok o) :
    m.evalMem np fma obs out =
      (m.eval np fma (obs.map MemArray.contents) (some o.contents)).map o.overwrite := by
  unfold RectilinearObj.evalMem RectilinearObj.eval RectilinearObj.evalUnchecked
  rw [he]
  simp only [npOut, ok_bind']
  cases m.vals with
  | f64 vals =>
    obtain ⟨ho1, ho2⟩ := extract64_each obs ho
    simp only
    cases pyEach Arr.asF64 m.grids with
    | error e => rfl
    | ok grids =>
    simp only [ok_bind']
    rw [ho1]
    cases hos : pyEach MemArray.extract64 obs with
    | error e => rfl
    | ok os =>
      rcases extract64_out o hout with ⟨h1, h2, h3⟩ | ⟨h1, h2⟩
      · simp only [h1, h2, ok_bind', Except.map]
        rw [memRawRectilinear_good fma m.kind.method (grids.map ownArray) (ownArray vals) m.kind.lin os
          o.strided64 (Strided.good_ownArray vals).1 (own_good grids) (ho2 os hos) h3, own_contents,
          (Strided.good_ownArray vals).2]
        obtain ⟨a, rfl⟩ : ∃ a, o = .f64 a := by
          cases o with
          | f64 a => exact ⟨a, rfl⟩
          | f32 a => cases h1
          | other a => cases h1
        cases rawRectilinear fma m.kind.method grids vals m.kind.lin (os.map Strided.contents)
          (MemArray.f64 a : MemArray F32 F64 X).strided64.contents <;> rfl
      · simp only [h1, h2]; rfl
  | f32 vals =>
    obtain ⟨ho1, ho2⟩ := extract32_each obs ho
    simp only
    cases pyEach Arr.asF32 m.grids with
    | error e => rfl
    | ok grids =>
    simp only [ok_bind']
    rw [ho1]
    cases hos : pyEach MemArray.extract32 obs with
    | error e => rfl
    | ok os =>
      rcases extract32_out o hout with ⟨h1, h2, h3⟩ | ⟨h1, h2⟩
      · simp only [h1, h2, ok_bind', Except.map]
        rw [memRawRectilinear_good fma m.kind.method (grids.map ownArray) (ownArray vals) m.kind.lin os
          o.strided32 (Strided.good_ownArray vals).1 (own_good grids) (ho2 os hos) h3, own_contents,
          (Strided.good_ownArray vals).2]
        obtain ⟨a, rfl⟩ : ∃ a, o = .f32 a := by
          cases o with
          | f32 a => exact ⟨a, rfl⟩
          | f64 a => cases h1
          | other a => cases h1
        cases rawRectilinear fma m.kind.method grids vals m.kind.lin (os.map Strided.contents)
          (MemArray.f32 a : MemArray F32 F64 X).strided32.contents <;> rfl
      · simp only [h1, h2]; rfl

private theorem rectilinear_eval_length {np : Numpy F32 F64 X} {fma : Bool} {m : RectilinearObj F32 F64}
    {obs : List (NpArray F32 F64 X)} {o r : NpArray F32 F64 X}
    (h : m.eval np fma obs (some o) = .ok r) : o.SameLength r := by
  unfold RectilinearObj.eval RectilinearObj.evalUnchecked at h
  simp only [npOut, ok_bind'] at h
  cases hv : m.vals with
  | f64 vals =>
    rw [hv] at h
    simp only at h
    obtain ⟨grids, -, h⟩ := bind_ok h
    obtain ⟨os, -, h⟩ := bind_ok h
    obtain ⟨l, hl, h⟩ := bind_ok h
    obtain ⟨q, hq, h⟩ := bind_ok h
    cases h
    cases o with
    | f64 d => cases hl; exact (rawRectilinear_length hq).symm
    | f32 d => cases hl
    | other d => cases hl
  | f32 vals =>
    rw [hv] at h
    simp only at h
    obtain ⟨grids, -, h⟩ := bind_ok h
    obtain ⟨os, -, h⟩ := bind_ok h
    obtain ⟨l, hl, h⟩ := bind_ok h
    obtain ⟨q, hq, h⟩ := bind_ok h
    cases h
    cases o with
    | f32 d => cases hl; exact (rawRectilinear_length hq).symm
    | f64 d => cases hl
    | other d => cases hl

/-- C101: an interpolator object (regular grid) evaluated on contiguous one-dimensional arrays (slices
of larger buffers included) gives what C80 describes. If `out` is given, it is changed in place, and
nothing else in its buffer is. -/
theorem C101_regular (np : Numpy F32 F64 X) (fma : Bool) (m : RegularObj F32 F64)
    (obs : List (MemArray F32 F64 X)) (out : Option (MemArray F32 F64 X)) (h1 : obs ≠ [])
    (ho : ∀ a ∈ obs, a.WellFormed ∧ a.Contiguous1) (hout : ∀ a ∈ out, a.WellFormed ∧ a.Contiguous1) :
    (m.evalMem np fma obs out).map MemArray.seen =
      m.evalNd np fma (obs.map MemArray.seen) (out.map MemArray.seen) ∧
    ∀ a ∈ out, ∀ r, m.evalMem np fma obs out = .ok r → a.SameView r ∧ a.SameOutside r := by
  have ho' : ∀ a ∈ obs, a.Good := fun a ha => good_of_contiguous a (ho a ha).1 (ho a ha).2
  have hout' : ∀ a ∈ out, a.Good := fun a ha => good_of_contiguous a (hout a ha).1 (hout a ha).2
  obtain ⟨o, e1, e2, e3, e4⟩ := memOut_good np obs out h1 ho' hout'
  rw [regular_evalMem_good np fma m obs o ho' e2 out e1]
  have hall : (obs.map MemArray.seen).all NdArray.oneDim = true := by
    rw [List.all_eq_true]
    intro a ha
    obtain ⟨b, hb, rfl⟩ := List.mem_map.1 ha
    exact good_oneDim b (ho' b hb)
  have hc : (obs.map MemArray.seen).map NdArray.contents = obs.map MemArray.contents := by
    rw [List.map_map]; rfl
  unfold RegularObj.evalNd
  rw [e3]
  simp only [ok_bind', hall, good_oneDim o e2, Bool.and_self, if_true, hc]
  change (Except.map _ (Except.map _ (m.eval np fma (obs.map MemArray.contents) (some o.contents))) =
    (m.eval np fma (obs.map MemArray.contents) (some o.contents) >>= _)) ∧ _
  cases hE : m.eval np fma (obs.map MemArray.contents) (some o.contents) with
  | error e => exact ⟨rfl, fun a _ r h => by cases h⟩
  | ok r =>
    obtain ⟨w1, w2, w3⟩ := overwrite_spec o e2 r (regular_eval_length hE)
    refine ⟨congrArg Except.ok w1, fun a ha q hq => ?_⟩
    cases hq
    rw [e4 a ha]
    exact ⟨w2, w3⟩

/-- C101: an interpolator object (rectilinear grid) evaluated on contiguous one-dimensional arrays (slices
of larger buffers included) gives what C80 describes. If `out` is given, it is changed in place, and
nothing else in its buffer is. -/
theorem C101_rectilinear (np : Numpy F32 F64 X) (fma : Bool) (m : RectilinearObj F32 F64)
    (obs : List (MemArray F32 F64 X)) (out : Option (MemArray F32 F64 X)) (h1 : obs ≠ [])
    (ho : ∀ a ∈ obs, a.WellFormed ∧ a.Contiguous1) (hout : ∀ a ∈ out, a.WellFormed ∧ a.Contiguous1) :
    (m.evalMem np fma obs out).map MemArray.seen =
      m.evalNd np fma (obs.map MemArray.seen) (out.map MemArray.seen) ∧
    ∀ a ∈ out, ∀ r, m.evalMem np fma obs out = .ok r → a.SameView r ∧ a.SameOutside r := by
  have ho' : ∀ a ∈ obs, a.Good := fun a ha => good_of_contiguous a (ho a ha).1 (ho a ha).2
  have hout' : ∀ a ∈ out, a.Good := fun a ha => good_of_contiguous a (hout a ha).1 (hout a ha).2
  obtain ⟨o, e1, e2, e3, e4⟩ := memOut_good np obs out h1 ho' hout'
  rw [rectilinear_evalMem_good np fma m obs o ho' e2 out e1]
  have hall : (obs.map MemArray.seen).all NdArray.oneDim = true := by
    rw [List.all_eq_true]
    intro a ha
    obtain ⟨b, hb, rfl⟩ := List.mem_map.1 ha
    exact good_oneDim b (ho' b hb)
  have hc : (obs.map MemArray.seen).map NdArray.contents = obs.map MemArray.contents := by
    rw [List.map_map]; rfl
  unfold RectilinearObj.evalNd
  rw [e3]
  simp only [ok_bind', hall, good_oneDim o e2, Bool.and_self, if_true, hc]
  change (Except.map _ (Except.map _ (m.eval np fma (obs.map MemArray.contents) (some o.contents))) =
    (m.eval np fma (obs.map MemArray.contents) (some o.contents) >>= _)) ∧ _
  cases hE : m.eval np fma (obs.map MemArray.contents) (some o.contents) with
  | error e => exact ⟨rfl, fun a _ r h => by cases h⟩
  | ok r =>
    obtain ⟨w1, w2, w3⟩ := overwrite_spec o e2 r (rectilinear_eval_length hE)
    refine ⟨congrArg Except.ok w1, fun a ha q hq => ?_⟩
    cases hq
    rw [e4 a ha]
    exact ⟨w2, w3⟩

/-! ### Arrays that are not contiguous -/

private theorem asSlice_cases {α : Type} (a : Strided α) :
    (a.asSlice = .error .typeError ∧ a.cContiguous = false) ∨
      (∃ s, a.asSlice = .ok s) ∧ a.cContiguous = true := by
  unfold Strided.asSlice
  cases h : a.cContiguous with
  | true => exact .inr ⟨⟨_, rfl⟩, rfl⟩
  | false => exact .inl ⟨rfl, rfl⟩

private theorem unpackFrom_cases {T : Type} : ∀ (l : List (Strided T)) (i : Nat), i + l.length ≤ 8 →
    unpackFrom i l = .error .typeError ∨
      (∃ ss, unpackFrom i l = .ok ss) ∧ ∀ a ∈ l, a.cContiguous = true
  | [], i, _ => .inr ⟨⟨[], rfl⟩, by simp⟩
  | a :: rest, i, h => by
    simp only [List.length_cons] at h
    unfold unpackFrom
    rcases asSlice_cases a with ⟨h1, -⟩ | ⟨⟨s, h1⟩, h2⟩
    · left; rw [h1]; rfl
    · rw [h1, ok_bind', if_pos (by omega : i < 8)]
      rcases unpackFrom_cases rest (i + 1) (by omega) with h3 | ⟨⟨ss, h3⟩, h4⟩
      · left; rw [h3]; rfl
      · right
        refine ⟨⟨s :: ss, by rw [h3]; rfl⟩, ?_⟩
        intro b hb
        rcases List.mem_cons.1 hb with rfl | hb
        · exact h2
        · exact h4 b hb

private theorem memRawRegular_bad {T : Type} [FloatOps T] (fma : Bool) (meth : String)
    (dims : List Nat) (starts steps : List T) (vals : Strided T) (lin : Bool)
    (obs : List (Strided T)) (out : Strided T) (hv : vals.Good) (h8 : obs.length ≤ 8)
    (h : (∃ a ∈ obs, a.cContiguous = false) ∨ out.cContiguous = false) :
    memRawRegular fma meth dims starts steps vals lin obs out = .error .typeError := by
  unfold memRawRegular
  rcases unpackFrom_cases obs 0 (by omega) with h1 | ⟨⟨ss, h1⟩, h2⟩
  · rw [h1]; rfl
  · rw [h1, hv.asSlice, ok_bind', ok_bind']
    rcases h with ⟨a, ha, hb⟩ | h
    · rw [h2 a ha] at hb; cases hb
    · rcases asSlice_cases out with ⟨h3, -⟩ | ⟨-, h3⟩
      · rw [h3]; rfl
      · rw [h3] at h; cases h

private theorem memRawRectilinear_bad {T : Type} [FloatOps T] (fma : Bool) (meth : String)
    (grids : List (Strided T)) (vals : Strided T) (lin : Bool)
    (obs : List (Strided T)) (out : Strided T) (hv : vals.Good) (h8 : obs.length ≤ 8)
    (hg8 : grids.length ≤ 8) (h : (∃ a ∈ obs, a.cContiguous = false) ∨ out.cContiguous = false) :
    memRawRectilinear fma meth grids vals lin obs out = .error .typeError := by
  unfold memRawRectilinear
  rcases unpackFrom_cases grids 0 (by omega) with h0 | ⟨⟨gs, h0⟩, -⟩
  · rw [h0]; rfl
  rw [h0, ok_bind']
  rcases unpackFrom_cases obs 0 (by omega) with h1 | ⟨⟨ss, h1⟩, h2⟩
  · rw [h1]; rfl
  · rw [h1, hv.asSlice, ok_bind', ok_bind']
    rcases h with ⟨a, ha, hb⟩ | h
    · rw [h2 a ha] at hb; cases hb
    · rcases asSlice_cases out with ⟨h3, -⟩ | ⟨-, h3⟩
      · rw [h3]; rfl
      · rw [h3] at h; cases h

private theorem extract64_cases (a : MemArray F32 F64 X) :
    a.extract64 = .error .typeError ∨
      ∃ s, a = .f64 s ∧ s.shape.length = 1 ∧ a.extract64 = .ok s := by
  cases a with
  | f32 s => exact .inl rfl
  | other s => exact .inl rfl
  | f64 s =>
    by_cases h : s.shape.length = 1
    · refine .inr ⟨s, rfl, h, ?_⟩
      change (if (s.shape.length == 1) = true then _ else _) = _
      rw [h]; rfl
    · refine .inl ?_
      change (if (s.shape.length == 1) = true then _ else _) = _
      rw [if_neg (by simpa using h)]

private theorem each64_cases : ∀ l : List (MemArray F32 F64 X),
    pyEach MemArray.extract64 l = .error .typeError ∨
      ∃ ss, l = ss.map MemArray.f64 ∧ (∀ s ∈ ss, s.shape.length = 1) ∧
        pyEach MemArray.extract64 l = .ok ss
  | [] => .inr ⟨[], rfl, by simp, rfl⟩
  | a :: rest => by
    unfold pyEach
    rcases extract64_cases a with h | ⟨s, rfl, h1, h2⟩
    · left; rw [h]; rfl
    · rw [h2, ok_bind']
      rcases each64_cases rest with h | ⟨ss, rfl, h3, h4⟩
      · left; rw [h]; rfl
      · right
        refine ⟨s :: ss, rfl, ?_, by rw [h4]; rfl⟩
        intro b hb
        rcases List.mem_cons.1 hb with rfl | hb
        · exact h1
        · exact h3 b hb

private theorem extract32_cases (a : MemArray F32 F64 X) :
    a.extract32 = .error .typeError ∨
      ∃ s, a = .f32 s ∧ s.shape.length = 1 ∧ a.extract32 = .ok s := by
  cases a with
  | f64 s => exact .inl rfl
  | other s => exact .inl rfl
  | f32 s =>
    by_cases h : s.shape.length = 1
    · refine .inr ⟨s, rfl, h, ?_⟩
      change (if (s.shape.length == 1) = true then _ else _) = _
      rw [h]; rfl
    · refine .inl ?_
      change (if (s.shape.length == 1) = true then _ else _) = _
      rw [if_neg (by simpa using h)]

private theorem each32_cases : ∀ l : List (MemArray F32 F64 X),
    pyEach MemArray.extract32 l = .error .typeError ∨
      ∃ ss, l = ss.map MemArray.f32 ∧ (∀ s ∈ ss, s.shape.length = 1) ∧
        pyEach MemArray.extract32 l = .ok ss
  | [] => .inr ⟨[], rfl, by simp, rfl⟩
  | a :: rest => by
    unfold pyEach
    rcases extract32_cases a with h | ⟨s, rfl, h1, h2⟩
    · left; rw [h]; rfl
    · rw [h2, ok_bind']
      rcases each32_cases rest with h | ⟨ss, rfl, h3, h4⟩
      · left; rw [h]; rfl
      · right
        refine ⟨s :: ss, rfl, ?_, by rw [h4]; rfl⟩
        intro b hb
        rcases List.mem_cons.1 hb with rfl | hb
        · exact h1
        · exact h3 b hb

private theorem pyEach_length {α β : Type} {f : α → Except PyExc β} : ∀ {l : List α} {bs : List β},
    pyEach f l = .ok bs → bs.length = l.length
  | [], bs, h => by cases h; rfl
  | a :: rest, bs, h => by
    unfold pyEach at h
    obtain ⟨b, -, h⟩ := bind_ok h
    obtain ⟨cs, hc, h⟩ := bind_ok h
    cases h
    simp [pyEach_length hc]

private theorem not_contiguous {α : Type} (a : Strided α) (hw : a.WellFormed) (h1 : a.shape.length = 1)
    (h : ¬ a.Contiguous1) : a.cContiguous = false := by
  rw [a.contiguous1_iff hw.1] at h
  cases hc : a.cContiguous with
  | true => exact absurd ⟨h1, hc⟩ h
  | false => rfl

/-- C101: if an observation array or `out` does not lie contiguously in memory (or has not exactly one
axis), evaluating an interpolator object (regular grid) raises `TypeError`; no data is copied or read
wrongly. The documentation of `eval` promises an `AssertionError`. -/
theorem C101_regular_type_error (np : Numpy F32 F64 X) (fma : Bool) (m : RegularObj F32 F64)
    (hd : ∀ d ∈ m.dims, 0 ≤ d ∧ d ≤ (usizeMax : Int))
    (obs : List (MemArray F32 F64 X)) (out : Option (MemArray F32 F64 X)) (h1 : obs ≠ [])
    (h8 : obs.length ≤ 8) (ho : ∀ a ∈ obs, a.WellFormed) (hout : ∀ a ∈ out, a.WellFormed)
    (h : (∃ a ∈ obs, ¬ a.Contiguous1) ∨ ∃ a ∈ out, ¬ a.Contiguous1) :
    m.evalMem np fma obs out = .error .typeError := by
  obtain ⟨ds, hds⟩ : ∃ ds, pyEach pyUsize m.dims = .ok ds := by
    rcases pyEach_cases (fun z (_ : z ∈ m.dims) => pyUsize_cases z) with h | h
    · exact h
    · exfalso
      obtain ⟨ds, e⟩ : ∃ ds : List Nat, m.dims = ds.map fun d : Nat => (d : Int) :=
        ⟨m.dims.map Int.toNat, by
          rw [List.map_map]
          symm
          rw [List.map_congr_left (g := id), List.map_id]
          intro a ha
          have := (hd a ha).1
          simp [this]⟩
      rw [e, pyEach_pyUsize] at h
      · cases h
      · intro d hd'
        have := (hd d (by rw [e]; exact List.mem_map.2 ⟨d, hd', rfl⟩)).2
        omega
  obtain ⟨o, e1, e2⟩ : ∃ o, memOut np obs out = .ok o ∧ ∀ a ∈ out, a = o := by
    cases out with
    | some a => exact ⟨a, rfl, fun b hb => by cases hb; rfl⟩
    | none =>
      cases obs with
      | nil => exact absurd rfl h1
      | cons b rest => exact ⟨_, rfl, fun b hb => by cases hb⟩
  unfold RegularObj.evalMem
  rw [e1, ok_bind']
  cases m.vals with
  | f64 vals =>
    simp only
    rw [hds, ok_bind']
    rcases Arr.asF64_cases m.starts with ⟨-, starts, hs⟩ | ⟨-, hs⟩
    swap
    · rw [hs]; rfl
    rcases Arr.asF64_cases m.steps with ⟨-, steps, hp⟩ | ⟨-, hp⟩
    swap
    · rw [hs, hp]; rfl
    rw [hs, hp, ok_bind', ok_bind']
    rcases each64_cases obs with h2 | ⟨os, rfl, h2, h3⟩
    · rw [h2]; rfl
    rw [h3, ok_bind']
    rcases extract64_cases o with h4 | ⟨q, rfl, h4, h5⟩
    · rw [h4]; rfl
    rw [h5, ok_bind']
    have h8' : os.length ≤ 8 := by simpa using h8
    have hb : (∃ a ∈ os, a.cContiguous = false) ∨ q.cContiguous = false := by
      rcases h with ⟨a, ha, hn⟩ | ⟨a, ha, hn⟩
      · obtain ⟨b, hb, rfl⟩ := List.mem_map.1 ha
        exact .inl ⟨b, hb, not_contiguous b (ho _ ha) (h2 b hb) hn⟩
      · have := e2 a ha
        subst this
        exact .inr (not_contiguous q (hout _ ha) h4 hn)
    rw [memRawRegular_bad _ _ _ _ _ _ _ _ _ (Strided.good_ownArray vals).1 h8' hb]
    rfl
  | f32 vals =>
    simp only
    rw [hds, ok_bind']
    rcases Arr.asF32_cases m.starts with ⟨-, starts, hs⟩ | ⟨-, hs⟩
    swap
    · rw [hs]; rfl
    rcases Arr.asF32_cases m.steps with ⟨-, steps, hp⟩ | ⟨-, hp⟩
    swap
    · rw [hs, hp]; rfl
    rw [hs, hp, ok_bind', ok_bind']
    rcases each32_cases obs with h2 | ⟨os, rfl, h2, h3⟩
    · rw [h2]; rfl
    rw [h3, ok_bind']
    rcases extract32_cases o with h4 | ⟨q, rfl, h4, h5⟩
    · rw [h4]; rfl
    rw [h5, ok_bind']
    have h8' : os.length ≤ 8 := by simpa using h8
    have hb : (∃ a ∈ os, a.cContiguous = false) ∨ q.cContiguous = false := by
      rcases h with ⟨a, ha, hn⟩ | ⟨a, ha, hn⟩
      · obtain ⟨b, hb, rfl⟩ := List.mem_map.1 ha
        exact .inl ⟨b, hb, not_contiguous b (ho _ ha) (h2 b hb) hn⟩
      · have := e2 a ha
        subst this
        exact .inr (not_contiguous q (hout _ ha) h4 hn)
    rw [memRawRegular_bad _ _ _ _ _ _ _ _ _ (Strided.good_ownArray vals).1 h8' hb]
    rfl

/-- C101: if an observation array or `out` does not lie contiguously in memory (or has not exactly one
axis), evaluating an interpolator object (rectilinear grid) raises `TypeError`; no data is copied or read
wrongly. The documentation of `eval` promises an `AssertionError`. -/
theorem C101_rectilinear_type_error (np : Numpy F32 F64 X) (fma : Bool) (m : RectilinearObj F32 F64)
    (hg8 : m.grids.length ≤ 8)
    (obs : List (MemArray F32 F64 X)) (out : Option (MemArray F32 F64 X)) (h1 : obs ≠ [])
    (h8 : obs.length ≤ 8) (ho : ∀ a ∈ obs, a.WellFormed) (hout : ∀ a ∈ out, a.WellFormed)
    (h : (∃ a ∈ obs, ¬ a.Contiguous1) ∨ ∃ a ∈ out, ¬ a.Contiguous1) :
    m.evalMem np fma obs out = .error .typeError := by
  obtain ⟨o, e1, e2⟩ : ∃ o, memOut np obs out = .ok o ∧ ∀ a ∈ out, a = o := by
    cases out with
    | some a => exact ⟨a, rfl, fun b hb => by cases hb; rfl⟩
    | none =>
      cases obs with
      | nil => exact absurd rfl h1
      | cons b rest => exact ⟨_, rfl, fun b hb => by cases hb⟩
  unfold RectilinearObj.evalMem
  rw [e1, ok_bind']
  cases m.vals with
  | f64 vals =>
    simp only
    rcases pyEach_dtype (ty := Arr.dtype) Arr.asF64_cases m.grids with ⟨-, gs, hgs⟩ | ⟨-, hgs⟩
    swap
    · rw [hgs]; rfl
    have hgl : gs.length ≤ 8 := by
      rw [pyEach_length hgs]; exact hg8
    rw [hgs, ok_bind']
    rcases each64_cases obs with h2 | ⟨os, rfl, h2, h3⟩
    · rw [h2]; rfl
    rw [h3, ok_bind']
    rcases extract64_cases o with h4 | ⟨q, rfl, h4, h5⟩
    · rw [h4]; rfl
    rw [h5, ok_bind']
    have h8' : os.length ≤ 8 := by simpa using h8
    have hb : (∃ a ∈ os, a.cContiguous = false) ∨ q.cContiguous = false := by
      rcases h with ⟨a, ha, hn⟩ | ⟨a, ha, hn⟩
      · obtain ⟨b, hb, rfl⟩ := List.mem_map.1 ha
        exact .inl ⟨b, hb, not_contiguous b (ho _ ha) (h2 b hb) hn⟩
      · have := e2 a ha
        subst this
        exact .inr (not_contiguous q (hout _ ha) h4 hn)
    rw [memRawRectilinear_bad _ _ _ _ _ _ _ (Strided.good_ownArray vals).1 h8' (by simpa using hgl) hb]
    rfl
  | f32 vals =>
    simp only
    rcases pyEach_dtype (ty := Arr.dtype) Arr.asF32_cases m.grids with ⟨-, gs, hgs⟩ | ⟨-, hgs⟩
    swap
    · rw [hgs]; rfl
    have hgl : gs.length ≤ 8 := by
      rw [pyEach_length hgs]; exact hg8
    rw [hgs, ok_bind']
    rcases each32_cases obs with h2 | ⟨os, rfl, h2, h3⟩
    · rw [h2]; rfl
    rw [h3, ok_bind']
    rcases extract32_cases o with h4 | ⟨q, rfl, h4, h5⟩
    · rw [h4]; rfl
    rw [h5, ok_bind']
    have h8' : os.length ≤ 8 := by simpa using h8
    have hb : (∃ a ∈ os, a.cContiguous = false) ∨ q.cContiguous = false := by
      rcases h with ⟨a, ha, hn⟩ | ⟨a, ha, hn⟩
      · obtain ⟨b, hb, rfl⟩ := List.mem_map.1 ha
        exact .inl ⟨b, hb, not_contiguous b (ho _ ha) (h2 b hb) hn⟩
      · have := e2 a ha
        subst this
        exact .inr (not_contiguous q (hout _ ha) h4 hn)
    rw [memRawRectilinear_bad _ _ _ _ _ _ _ (Strided.good_ownArray vals).1 h8' (by simpa using hgl) hb]
    rfl

/-! ### Concrete cases -/

section
attribute [local instance] ratOps

private abbrev S (b : List ℚ) (off : Nat) (sh : List Nat) (st : List Int) : MemArray ℚ ℚ Int :=
  .f64 ⟨b, off, sh, st⟩

/-- Every second element of a buffer, backwards. -/
private abbrev exBack : MemArray ℚ ℚ Int := S [2, 9, 1/2, 9, 0] 4 [3] [-2]

/-- A transposed 2×2 array. -/
private abbrev exT : MemArray ℚ ℚ Int := S [1, 3, 2, 4] 0 [2, 2] [1, 2]

/-- One number broadcast to three elements. -/
private abbrev exBroadcast : MemArray ℚ ℚ Int := S [1] 0 [3] [0]

/-- Elements 1 and 2 of a buffer of five. -/
private abbrev exOut : MemArray ℚ ℚ Int := S [7, 0, 0, 8, 9] 1 [2] [1]

private abbrev exObj : RegularObj ℚ ℚ := ⟨.multilinear, [2, 2], .f64 [0, 0], .f64 [1, 1],
  .f64 [1, 2, 3, 4]⟩

private theorem wf_of_check {a : MemArray ℚ ℚ Int} {b : List ℚ} {off : Nat} {sh : List Nat}
    {st : List Int} (ha : a = S b off sh st)
    (h : (sh.length == st.length && (Strided.positionsFrom off sh st).all fun p =>
      decide (0 ≤ p) && decide (p < b.length)) = true) : a.WellFormed := by
  subst ha
  rw [Bool.and_eq_true, List.all_eq_true] at h
  exact ⟨by simpa using h.1, fun p hp => by simpa using h.2 p hp⟩

/-- `C101_interpn`: observations read backwards with stride 2 and broadcast, transposed values. The
hypotheses hold, and the call succeeds. -/
example : (∀ a ∈ [exBack, exBroadcast, exT], a.WellFormed) ∧
    [exBack, exBroadcast, exT].map MemArray.seen =
      [.f64 ([3], [0, 1/2, 2]), .f64 ([3], [1, 1, 1]), .f64 ([2, 2], [1, 2, 3, 4])] ∧
    (memInterpn exNumpy exNumpyX true [exBack, exBroadcast] [S [0, 1] 0 [2] [1], S [1, 0] 1 [2] [-1]]
      exT "linear" none true false false (1/10)).map (fun r => (r.1, r.2.seen)) =
      .ok (⟨"linear", true, .float64⟩, .f64 ([3], [2, 3, 6])) := by
  refine ⟨?_, by decide +kernel, by decide +kernel⟩
  simp only [List.mem_cons, List.not_mem_nil, or_false, forall_eq_or_imp, forall_eq]
  exact ⟨wf_of_check rfl (by decide +kernel), wf_of_check rfl (by decide +kernel),
    wf_of_check rfl (by decide +kernel)⟩

/-- `C101_interpn_out`: element 1 of a buffer as `out`. -/
example : (S [5, 7, 6] 1 [1, 1] [3, 2]).contents.truth exNumpy exNumpyX = .ok true ∧
    memInterpn exNumpy exNumpyX true [S [9, 1/2] 1 [1] [1]] [S [0, 1] 0 [2] [1]] (S [1, 2] 0 [2] [1])
      "linear" (some (S [5, 7, 6] 1 [1, 1] [3, 2])) true false true (1/10) =
      .ok (⟨"linear", true, .float64⟩, S [5, 3/2, 6] 1 [1, 1] [1, 1]) := by decide +kernel

/-- `C101_regular`: slices of larger buffers; two elements of the buffer of `out` change. -/
example : exObj.evalMem exNumpy true [S [9, 1/2, 1] 1 [2] [1], S [1/2, 2, 9] 0 [2] [1]] (some exOut) =
    .ok (S [7, 5/2, 5, 8, 9] 1 [2] [1]) ∧ exOut.Contiguous1 ∧ exOut.WellFormed :=
  ⟨by decide +kernel, ⟨2, 1, rfl, rfl, .inr rfl⟩, wf_of_check rfl (by decide +kernel)⟩

/-- `C101_regular_type_error`: stride 2, a broadcast number, an `out` with stride 2. -/
example : exObj.evalMem exNumpy true [S [1/2, 9, 1] 0 [2] [2], S [1/2, 2] 0 [2] [1]] none =
      .error .typeError ∧
    exObj.evalMem exNumpy true [S [1/2, 1] 0 [2] [1], S [2] 0 [2] [0]] none = .error .typeError ∧
    exObj.evalMem exNumpy true [S [1/2, 1] 0 [2] [1], S [1/2, 2] 0 [2] [1]]
      (some (S [7, 0, 0, 8, 9] 1 [2] [2])) = .error .typeError ∧
    ¬ (S [1/2, 9, 1] 0 [2] [2]).Contiguous1 := by
  refine ⟨by decide +kernel, by decide +kernel, by decide +kernel, ?_⟩
  rintro ⟨n, s, h1, h2, h3⟩
  cases h1
  cases h2
  omega

/-- `C101_rectilinear`, `C101_rectilinear_type_error`. -/
example : RectilinearObj.evalMem exNumpy true ⟨.nearest, [.f64 [0, 1], .f64 [0, 2]],
      .f64 [1, 2, 3, 4]⟩ [S [9, 1/4, 1] 1 [2] [1], S [1/2, 2] 0 [2] [1]] (some exOut) =
      .ok (S [7, 1, 4, 8, 9] 1 [2] [1]) ∧
    RectilinearObj.evalMem exNumpy true ⟨.nearest, [.f64 [0, 1], .f64 [0, 2]],
      .f64 [1, 2, 3, 4]⟩ [exBack, exBack] none = .error .typeError := by decide +kernel

end

end Interpn
