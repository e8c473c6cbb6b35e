import Verif.Spec.PythonLayout
import Verif.Lemmas.PythonShapes
import Verif.Props.PythonClasses
import Mathlib.Data.List.Basic
import Mathlib.Tactic.Ring
import Mathlib.Algebra.BigOperators.Group.List.Basic

/-! Views of a buffer: contents, copies, slices. -/

set_option autoImplicit false
set_option linter.unusedSectionVars false

namespace Interpn
namespace Strided
variable {α : Type}

theorem positionsFrom_length : ∀ (shape : List Nat) (strides : List Int) (off : Int),
    shape.length = strides.length → (positionsFrom off shape strides).length = shape.prod
  | [], _, _, _ => by simp [positionsFrom]
  | _ :: _, [], _, h => by simp at h
  | n :: shape, s :: strides, off, h => by
    have ih := fun o => positionsFrom_length shape strides o (by simpa using h)
    simp [positionsFrom, List.length_flatMap, ih]

theorem flatMap_range (n m : Nat) (off : Int) :
    ((List.range n).flatMap fun i : Nat => (List.range m).map fun j : Nat => off + i * m + j) =
      (List.range (n * m)).map fun j : Nat => off + j := by
  induction n with
  | zero => simp
  | succ n ih =>
    rw [List.range_succ, List.flatMap_append, ih, Nat.succ_mul, List.range_add, List.map_append]
    congr 1
    simp only [List.flatMap_cons, List.flatMap_nil, List.append_nil, List.map_map]
    apply List.map_congr_left
    intro j _
    simp only [Function.comp]
    push_cast
    ring

theorem positionsFrom_cOrdered : ∀ (shape : List Nat) (strides : List Int) (off : Int),
    cOrdered shape strides = true →
    positionsFrom off shape strides = (List.range shape.prod).map fun j : Nat => off + j
  | [], _, off, _ => by simp [positionsFrom]
  | _ :: _, [], _, h => by simp [cOrdered] at h
  | n :: shape, s :: strides, off, h => by
    simp only [cOrdered, Bool.and_eq_true, Bool.or_eq_true, beq_iff_eq] at h
    have ih := fun o => positionsFrom_cOrdered shape strides o h.2
    simp only [positionsFrom, ih, List.prod_cons]
    rcases h.1 with h1 | h1
    · subst h1
      simp
    · subst h1
      exact flatMap_range n shape.prod off

theorem positions_cContiguous (a : Strided α) (hl : a.shape.length = a.strides.length)
    (h : a.cContiguous = true) :
    a.positions = (List.range a.shape.prod).map fun j : Nat => (a.offset : Int) + j := by
  unfold cContiguous at h
  rw [Bool.or_eq_true] at h
  rcases h with h | h
  · have h0 : a.shape.prod = 0 := by
      rw [List.prod_eq_zero_iff]
      simpa using h
    have := positionsFrom_length a.shape a.strides a.offset hl
    rw [h0] at this ⊢
    rw [List.range_zero, List.map_nil]
    exact List.length_eq_zero_iff.1 this
  · exact positionsFrom_cOrdered _ _ _ h

theorem filterMap_range (l : List α) (off n : Nat) :
    ((List.range n).filterMap fun j => l[off + j]?) = (l.drop off).take n := by
  induction n with
  | zero => simp
  | succ n ih =>
    rw [List.range_succ, List.filterMap_append, ih, List.take_add_one, List.getElem?_drop]
    congr 1

theorem contents_cContiguous (a : Strided α) (hl : a.shape.length = a.strides.length)
    (h : a.cContiguous = true) : a.contents = (a.buffer.drop a.offset).take a.shape.prod := by
  unfold contents
  rw [positions_cContiguous a hl h, List.filterMap_map, ← filterMap_range]
  congr 1

theorem asSlice_ok (a : Strided α) (hl : a.shape.length = a.strides.length)
    (h : a.cContiguous = true) : a.asSlice = .ok a.contents := by
  unfold asSlice
  rw [if_pos h, contents_cContiguous a hl h]

theorem contents_length (a : Strided α) (h : a.WellFormed) : a.contents.length = a.shape.prod := by
  rw [← positionsFrom_length a.shape a.strides a.offset h.1]
  unfold contents
  have : ∀ l : List Int, (∀ p ∈ l, 0 ≤ p ∧ p < a.buffer.length) →
      (l.filterMap fun p => if 0 ≤ p then a.buffer[p.toNat]? else none).length = l.length := by
    intro l
    induction l with
    | nil => simp
    | cons p l ih =>
      intro hp
      obtain ⟨h0, h1⟩ := hp p (by simp)
      have h2 : p.toNat < a.buffer.length := by omega
      rw [List.filterMap_cons]
      simp only [if_pos h0, List.getElem?_eq_getElem h2, List.length_cons]
      rw [ih fun q hq => hp q (by simp [hq])]
  exact this _ h.2

theorem cStrides_length (shape : List Nat) : (cStrides shape).length = shape.length := by
  induction shape with
  | nil => rfl
  | cons n sh ih => simp [cStrides, ih]

theorem cOrdered_cStrides (shape : List Nat) : cOrdered shape (cStrides shape) = true := by
  induction shape with
  | nil => rfl
  | cons n sh ih => simp [cStrides, cOrdered, ih]

theorem cContiguous_of_cStrides (a : Strided α) (h : a.strides = cStrides a.shape) :
    a.cContiguous = true := by
  unfold cContiguous
  rw [h, cOrdered_cStrides, Bool.or_true]

/-- A view in C order sees the next elements of the buffer. -/
theorem contents_cStrides (b : List α) (off : Nat) (sh : List Nat) :
    (⟨b, off, sh, cStrides sh⟩ : Strided α).contents = (b.drop off).take sh.prod :=
  contents_cContiguous _ (cStrides_length sh).symm (cContiguous_of_cStrides _ rfl)

theorem wellFormed_cStrides (b : List α) (off : Nat) (sh : List Nat)
    (h : off + sh.prod ≤ b.length ∨ sh.prod = 0) :
    (⟨b, off, sh, cStrides sh⟩ : Strided α).WellFormed := by
  refine ⟨(cStrides_length sh).symm, ?_⟩
  rw [positions_cContiguous _ (cStrides_length sh).symm (cContiguous_of_cStrides _ rfl)]
  intro p hp
  simp only [List.mem_map, List.mem_range] at hp
  obtain ⟨j, hj, rfl⟩ := hp
  simp only
  omega

/-- In a well-formed contiguous array the elements end before the buffer does. -/
theorem WellFormed.bound {a : Strided α} (h : a.WellFormed) (hc : a.cContiguous = true) :
    a.offset + a.shape.prod ≤ a.buffer.length ∨ a.shape.prod = 0 := by
  rcases Nat.eq_zero_or_pos a.shape.prod with h0 | h0
  · exact .inr h0
  · left
    have := h.2 ((a.offset : Int) + (a.shape.prod - 1 : Nat)) (by
      rw [positions_cContiguous a h.1 hc]
      exact List.mem_map.2 ⟨a.shape.prod - 1, List.mem_range.2 (by omega), rfl⟩)
    omega

theorem ravel_spec (a : Strided α) (h : a.WellFormed) :
    a.ravel.contents = a.contents ∧ a.ravel.WellFormed ∧ a.ravel.shape = [a.shape.prod] ∧
      a.ravel.cContiguous = true := by
  unfold ravel
  split
  · rename_i hc
    have hb := h.bound hc
    refine ⟨?_, wellFormed_cStrides _ _ _ (by simpa using hb), rfl, cContiguous_of_cStrides _ rfl⟩
    rw [contents_cContiguous a h.1 hc]
    unfold reshape
    rw [contents_cStrides]
    simp
  · refine ⟨?_, wellFormed_cStrides _ _ _ ?_, rfl, cContiguous_of_cStrides _ rfl⟩
    · unfold reshape copy
      rw [contents_cStrides, List.drop_zero, List.take_of_length_le]
      rw [contents_length a h]; simp
    · left
      simp only [copy, contents_length a h]
      simp

theorem asContiguous_of_contiguous (a : Strided α) (h : a.cContiguous = true) :
    a.asContiguous = a := by
  unfold asContiguous
  rw [if_pos h]

theorem copy_spec (a : Strided α) (h : a.WellFormed) :
    a.copy.contents = a.contents ∧ a.copy.WellFormed ∧ a.copy.shape = a.shape ∧
      a.copy.cContiguous = true := by
  have hl := contents_length a h
  refine ⟨?_, wellFormed_cStrides _ _ _ ?_, rfl, cContiguous_of_cStrides _ rfl⟩
  · unfold copy
    rw [contents_cStrides, List.drop_zero, List.take_of_length_le]
    rw [hl]
  · left; simp [hl]

theorem reshape_contents (a : Strided α) (hl : a.shape.length = a.strides.length)
    (hc : a.cContiguous = true) (sh : List Nat) (hs : sh.prod = a.shape.prod) :
    (a.reshape sh).contents = a.contents := by
  rw [contents_cContiguous a hl hc]
  unfold reshape
  rw [contents_cStrides, hs]

theorem contiguous1_iff (a : Strided α) (hl : a.shape.length = a.strides.length) :
    a.Contiguous1 ↔ a.shape.length = 1 ∧ a.cContiguous = true := by
  obtain ⟨b, off, sh, st⟩ := a
  simp only [Contiguous1] at *
  constructor
  · rintro ⟨n, s, rfl, rfl, h⟩
    refine ⟨rfl, ?_⟩
    simp only [cContiguous, cOrdered, List.any_cons, List.any_nil, List.prod_nil]
    rcases h with h | h
    · have : n = 0 ∨ n = 1 := by omega
      rcases this with rfl | rfl <;> simp
    · subst h; simp
  · rintro ⟨h1, h2⟩
    obtain ⟨n, rfl⟩ := List.length_eq_one_iff.1 h1
    obtain ⟨s, rfl⟩ := List.length_eq_one_iff.1 (hl ▸ h1)
    refine ⟨n, s, rfl, rfl, ?_⟩
    simp [cContiguous, cOrdered] at h2
    omega

theorem write_spec (a : Strided α) (h : a.WellFormed) (hc : a.cContiguous = true) (r : List α)
    (hr : r.length = a.shape.prod) :
    (a.write r).contents = r ∧ (a.write r).WellFormed ∧ a.SameView (a.write r) ∧
      a.SameOutside (a.write r) := by
  have hb := h.bound hc
  have hcw : (a.write r).cContiguous = true := hc
  have hlen : a.offset + r.length ≤ a.buffer.length ∨ r = [] := by
    rw [← hr] at hb
    rcases hb with hb | hb
    · exact .inl hb
    · exact .inr (List.length_eq_zero_iff.1 hb)
  have hbl : (a.write r).buffer.length = a.buffer.length := by
    simp only [write, List.length_append, List.length_take, List.length_drop]
    rcases hlen with hlen | rfl
    · omega
    · simp; omega
  refine ⟨?_, ⟨h.1, ?_⟩, ⟨rfl, rfl, rfl⟩, hbl, ?_⟩
  · rw [contents_cContiguous (a.write r) h.1 hcw]
    change (List.drop a.offset (a.buffer.take a.offset ++ r ++ a.buffer.drop (a.offset + r.length))).take
      a.shape.prod = r
    rw [← hr]
    rcases hlen with hlen | rfl
    · rw [List.append_assoc, List.drop_append_of_le_length (by simp; omega)]
      rw [List.drop_of_length_le (by simp), List.nil_append, List.take_append_of_le_length le_rfl,
        List.take_length]
    · simp
  · intro p hp
    rw [hbl]
    exact h.2 p hp
  · intro p hp
    rw [positions_cContiguous a h.1 hc] at hp
    have hp' : p < a.offset ∨ a.offset + r.length ≤ p := by
      by_contra hcon
      push Not at hcon
      exact hp (List.mem_map.2 ⟨p - a.offset, List.mem_range.2 (by omega), by omega⟩)
    simp only [write]
    rcases hlen with hlen | rfl
    · rcases hp' with hp' | hp'
      · rw [List.append_assoc, List.getElem?_append_left (by simp; omega), List.getElem?_take,
          if_pos hp']
      · rw [List.getElem?_append_right (by simp; omega), List.getElem?_drop]
        congr 1
        simp
        omega
    · simp

/-- What `ravel` and `ascontiguousarray` make: one axis, contiguous. -/
def Good (a : Strided α) : Prop :=
  a.WellFormed ∧ a.shape.length = 1 ∧ a.cContiguous = true

theorem Good.asSlice {a : Strided α} (h : a.Good) : a.asSlice = .ok a.contents :=
  asSlice_ok a h.1.1 h.2.2

theorem Good.length {a : Strided α} (h : a.Good) : a.contents.length = a.shape.prod :=
  contents_length a h.1

theorem good_ravel (a : Strided α) (h : a.WellFormed) :
    a.ravel.Good ∧ a.ravel.contents = a.contents := by
  obtain ⟨h1, h2, h3, h4⟩ := ravel_spec a h
  exact ⟨⟨h2, by rw [h3]; rfl, h4⟩, h1⟩

theorem good_ownArray (d : List α) : (ownArray d).Good ∧ (ownArray d).contents = d := by
  have e : ownArray d = ⟨d, 0, [d.length], cStrides [d.length]⟩ := by
    simp [ownArray, cStrides]
  rw [e]
  refine ⟨⟨wellFormed_cStrides _ _ _ (by simp), rfl, cContiguous_of_cStrides _ rfl⟩, ?_⟩
  rw [contents_cStrides]
  simp

end Strided

/-! #### Raw routines -/

section
variable {T : Type} [FloatOps T]

theorem unpackFrom_good : ∀ (l : List (Strided T)) (i : Nat), i ≤ 8 → (∀ a ∈ l, a.Good) →
    unpackFrom i l = if i + l.length ≤ 8 then .ok (l.map Strided.contents)
      else .error .panicException
  | [], i, hi, _ => by simp [unpackFrom, hi]
  | a :: rest, i, hi, h => by
    unfold unpackFrom
    rw [(h a (by simp)).asSlice, ok_bind']
    by_cases h8 : i < 8
    · rw [if_pos h8, unpackFrom_good rest (i + 1) h8 fun b hb => h b (by simp [hb])]
      have : i + 1 + rest.length = i + (a :: rest).length := by simp; omega
      rw [this]
      split <;> rfl
    · rw [if_neg h8, if_neg (by simp; omega)]

theorem unpackFrom_zero (l : List (Strided T)) (h : ∀ a ∈ l, a.Good) :
    unpackFrom 0 l = if unpackOk l then .ok (l.map Strided.contents)
      else .error .panicException := by
  rw [unpackFrom_good l 0 (by omega) h]
  simp [unpackOk]

theorem unpackOk_map {α β : Type} (f : α → β) (l : List α) : unpackOk (l.map f) = unpackOk l := by
  simp [unpackOk]

theorem memRawRegular_good (fma : Bool) (meth : String) (dims : List Nat) (starts steps : List T)
    (vals : Strided T) (lin : Bool) (obs : List (Strided T)) (out : Strided T) (hv : vals.Good)
    (ho : ∀ a ∈ obs, a.Good) (hout : out.Good) :
    memRawRegular fma meth dims starts steps vals lin obs out =
      (rawRegular fma meth dims starts steps vals.contents lin (obs.map Strided.contents)
        out.contents).map out.write := by
  unfold memRawRegular
  rw [unpackFrom_zero obs ho, hv.asSlice, hout.asSlice]
  cases hu : unpackOk obs with
  | true =>
    simp only [if_true, ok_bind']
    cases rawRegular fma meth dims starts steps vals.contents lin (obs.map Strided.contents)
      out.contents <;> rfl
  | false =>
    unfold rawRegular
    rw [unpackOk_map, hu]
    rfl

theorem memRawRectilinear_good (fma : Bool) (meth : String) (grids : List (Strided T))
    (vals : Strided T) (lin : Bool) (obs : List (Strided T)) (out : Strided T) (hv : vals.Good)
    (hg : ∀ a ∈ grids, a.Good) (ho : ∀ a ∈ obs, a.Good) (hout : out.Good) :
    memRawRectilinear fma meth grids vals lin obs out =
      (rawRectilinear fma meth (grids.map Strided.contents) vals.contents lin
        (obs.map Strided.contents) out.contents).map out.write := by
  unfold memRawRectilinear
  rw [unpackFrom_zero grids hg, unpackFrom_zero obs ho, hv.asSlice, hout.asSlice]
  cases hg' : unpackOk grids with
  | false =>
    unfold rawRectilinear
    rw [unpackOk_map, hg']
    rfl
  | true =>
    cases hu : unpackOk obs with
    | true =>
      simp only [if_true, ok_bind']
      cases rawRectilinear fma meth (grids.map Strided.contents) vals.contents lin
        (obs.map Strided.contents) out.contents <;> rfl
    | false =>
      unfold rawRectilinear
      rw [unpackOk_map, unpackOk_map, hg', hu]
      rfl

end

variable {F32 F64 X : Type} [FloatOps F32] [FloatOps F64]

/-! #### Arrays with an element type -/

namespace MemArray

/-- What `ravel` and `ascontiguousarray` make. -/
def Good : MemArray F32 F64 X → Prop
  | .f32 a => a.Good
  | .f64 a => a.Good
  | .other a => a.Good

theorem good_ravel (a : MemArray F32 F64 X) (h : a.WellFormed) :
    a.ravel.Good ∧ a.ravel.contents = a.contents := by
  cases a with
  | f32 a => exact ⟨(a.good_ravel h).1, congrArg NpArray.f32 (a.good_ravel h).2⟩
  | f64 a => exact ⟨(a.good_ravel h).1, congrArg NpArray.f64 (a.good_ravel h).2⟩
  | other a => exact ⟨(a.good_ravel h).1, congrArg NpArray.other (a.good_ravel h).2⟩

theorem asContiguous_good (a : MemArray F32 F64 X) (h : a.Good) : a.asContiguous = a := by
  cases a with
  | f32 a => exact congrArg MemArray.f32 (a.asContiguous_of_contiguous h.2.2)
  | f64 a => exact congrArg MemArray.f64 (a.asContiguous_of_contiguous h.2.2)
  | other a => exact congrArg MemArray.other (a.asContiguous_of_contiguous h.2.2)

end MemArray

theorem extract64_each : ∀ (l : List (MemArray F32 F64 X)), (∀ a ∈ l, a.Good) →
    pyEach NpArray.asF64 (l.map MemArray.contents) =
      (pyEach MemArray.extract64 l).map (List.map Strided.contents) ∧
    ∀ ys, pyEach MemArray.extract64 l = .ok ys → ∀ y ∈ ys, y.Good
  | [], _ => ⟨rfl, fun ys h => by cases h; simp⟩
  | a :: rest, h => by
    obtain ⟨ih1, ih2⟩ := extract64_each rest fun b hb => h b (by simp [hb])
    have ha := h a (by simp)
    cases a with
    | f32 a => exact ⟨rfl, fun ys h => by cases h⟩
    | other a => exact ⟨rfl, fun ys h => by cases h⟩
    | f64 a =>
      have he : MemArray.extract64 (F32 := F32) (X := X) (.f64 a) = .ok a := by
        change (if (a.shape.length == 1) = true then _ else _) = _
        rw [show a.shape.length = 1 from ha.2.1]
        rfl
      unfold pyEach
      rw [he]
      simp only [List.map_cons, MemArray.contents, NpArray.asF64, ok_bind', ih1]
      cases hr : pyEach MemArray.extract64 rest with
      | error e => exact ⟨rfl, fun ys h => by cases h⟩
      | ok zs =>
        refine ⟨rfl, fun ys h => ?_⟩
        cases h
        intro y hy
        rcases List.mem_cons.1 hy with rfl | hy
        · exact ha
        · exact ih2 zs hr y hy

theorem extract32_each : ∀ (l : List (MemArray F32 F64 X)), (∀ a ∈ l, a.Good) →
    pyEach NpArray.asF32 (l.map MemArray.contents) =
      (pyEach MemArray.extract32 l).map (List.map Strided.contents) ∧
    ∀ ys, pyEach MemArray.extract32 l = .ok ys → ∀ y ∈ ys, y.Good
  | [], _ => ⟨rfl, fun ys h => by cases h; simp⟩
  | a :: rest, h => by
    obtain ⟨ih1, ih2⟩ := extract32_each rest fun b hb => h b (by simp [hb])
    have ha := h a (by simp)
    cases a with
    | f64 a => exact ⟨rfl, fun ys h => by cases h⟩
    | other a => exact ⟨rfl, fun ys h => by cases h⟩
    | f32 a =>
      have he : MemArray.extract32 (F64 := F64) (X := X) (.f32 a) = .ok a := by
        change (if (a.shape.length == 1) = true then _ else _) = _
        rw [show a.shape.length = 1 from ha.2.1]
        rfl
      unfold pyEach
      rw [he]
      simp only [List.map_cons, MemArray.contents, NpArray.asF32, ok_bind', ih1]
      cases hr : pyEach MemArray.extract32 rest with
      | error e => exact ⟨rfl, fun ys h => by cases h⟩
      | ok zs =>
        refine ⟨rfl, fun ys h => ?_⟩
        cases h
        intro y hy
        rcases List.mem_cons.1 hy with rfl | hy
        · exact ha
        · exact ih2 zs hr y hy

/-! #### `interpn` -/

/-- The array in memory, if it is of float64. -/
def MemArray.strided64 : MemArray F32 F64 X → Strided F64
  | .f64 a => a
  | _ => ⟨[], 0, [], []⟩

theorem extract64_out (out : MemArray F32 F64 X) (hout : out.Good) :
    (out.extract64 = .ok out.strided64 ∧ out.contents.asF64 = .ok out.strided64.contents ∧
      out.strided64.Good) ∨
    (out.extract64 = .error .typeError ∧ out.contents.asF64 = .error .typeError) := by
  cases out with
  | f64 a =>
    left
    refine ⟨?_, rfl, hout⟩
    change (if (a.shape.length == 1) = true then _ else _) = _
    rw [show a.shape.length = 1 from hout.2.1]
    rfl
  | f32 a => exact .inr ⟨rfl, rfl⟩
  | other a => exact .inr ⟨rfl, rfl⟩

/-- On flat contiguous arrays: the result of `npInterpn64`, written into `out`. -/
theorem memInterpn64_good (np : Numpy F32 F64 X) (nx : NumpyX X) (fma : Bool)
    (obs grids : List (MemArray F32 F64 X)) (vals : Strided F64) (meth : String)
    (out : MemArray F32 F64 X) (lin assume checkB : Bool) (atol : F64)
    (ho : ∀ a ∈ obs, a.Good) (hg : ∀ a ∈ grids, a.Good) (hv : vals.Good) (hout : out.Good) :
    memInterpn64 np nx fma obs grids vals meth out lin assume checkB atol =
      (npInterpn64 np nx fma (obs.map MemArray.contents) (grids.map MemArray.contents) vals.contents
        meth out.contents lin assume checkB atol).map
        fun q => (q.1, out.strided64.write q.2) := by
  obtain ⟨ho1, ho2⟩ := extract64_each obs ho
  obtain ⟨hg1, hg2⟩ := extract64_each grids hg
  unfold memInterpn64 npInterpn64
  simp only [ho1, hg1]
  generalize grids.map MemArray.contents = gc
  have tail : ∀ (regular : Bool) (dims : List Nat) (starts steps : List F64),
      (do
        if checkB then
          let flags ←
            if regular then do
              let obs ← pyEach MemArray.extract64 obs
              let obs ← unpackFrom 0 obs
              pyOfRes (checkBoundsRegular dims starts steps obs atol [false])
            else do
              let grids ← pyEach MemArray.extract64 grids
              let obs ← pyEach MemArray.extract64 obs
              let grids ← unpackFrom 0 grids
              let obs ← unpackFrom 0 obs
              pyOfRes (checkBoundsRectilinear grids obs atol [false])
          if flags.any id then .error (.valueError "Observation points violate interpolator bounds")
        let call ← pyDispatch .float64 regular meth
        let r ←
          if regular then do
            let obs ← pyEach MemArray.extract64 obs
            let out ← out.extract64
            memRawRegular fma call.method dims starts steps vals lin obs out
          else do
            let grids ← pyEach MemArray.extract64 grids
            let obs ← pyEach MemArray.extract64 obs
            let out ← out.extract64
            memRawRectilinear fma call.method grids vals lin obs out
        return (call, r) : Except PyExc (RawCall × Strided F64)) =
      (do
        if checkB then
          let flags ←
            if regular then do
              let obs ← (pyEach MemArray.extract64 obs).map (List.map Strided.contents)
              if !unpackOk obs then .error .panicException
              else pyOfRes (checkBoundsRegular dims starts steps obs atol [false])
            else do
              let grids ← (pyEach MemArray.extract64 grids).map (List.map Strided.contents)
              let obs ← (pyEach MemArray.extract64 obs).map (List.map Strided.contents)
              if !(unpackOk grids && unpackOk obs) then .error .panicException
              else pyOfRes (checkBoundsRectilinear grids obs atol [false])
          if flags.any id then .error (.valueError "Observation points violate interpolator bounds")
        let call ← pyDispatch .float64 regular meth
        let r ←
          if regular then do
            let obs ← (pyEach MemArray.extract64 obs).map (List.map Strided.contents)
            let out ← out.contents.asF64
            rawRegular fma call.method dims starts steps vals.contents lin obs out
          else do
            let grids ← (pyEach MemArray.extract64 grids).map (List.map Strided.contents)
            let obs ← (pyEach MemArray.extract64 obs).map (List.map Strided.contents)
            let out ← out.contents.asF64
            rawRectilinear fma call.method grids vals.contents lin obs out
        return (call, r) : Except PyExc (RawCall × List F64)).map
          fun q => (q.1, out.strided64.write q.2) := by
    intro regular dims starts steps
    have finish : ∀ {call : RawCall} {E : Except PyExc (List F64)},
        ((E.map out.strided64.write >>= fun r => pure (call, r)) :
          Except PyExc (RawCall × Strided F64)) =
        ((E >>= fun r => pure (call, r)) : Except PyExc (RawCall × List F64)).map
          fun q => (q.1, out.strided64.write q.2) := by
      intro call E; cases E <;> rfl
    cases hoe : pyEach MemArray.extract64 obs with
    | error e =>
      cases hge : pyEach MemArray.extract64 grids <;> cases regular <;> cases checkB <;>
        cases pyDispatch .float64 _ meth <;> rfl
    | ok os =>
      cases regular with
      | true =>
        simp only [if_true, ok_bind', Except.map, unpackOk_map, unpackFrom_zero os (ho2 os hoe)]
        have raw : ∀ call : RawCall, (do
            let out ← out.extract64
            let r ← memRawRegular fma call.method dims starts steps vals lin os out
            pure (call, r) : Except PyExc (RawCall × Strided F64)) = (do
            let out ← out.contents.asF64
            let r ← rawRegular fma call.method dims starts steps vals.contents lin
              (os.map Strided.contents) out
            pure (call, r) : Except PyExc (RawCall × List F64)).map
              fun q => (q.1, out.strided64.write q.2) := by
          intro call
          rcases extract64_out out hout with ⟨h1, h2, h3⟩ | ⟨h1, h2⟩
          · simp only [h1, h2, ok_bind',
              memRawRegular_good fma _ dims starts steps vals lin os _ hv (ho2 os hoe) h3]
            exact finish
          · simp only [h1, h2]; rfl
        simp only [raw]
        cases checkB with
        | false => cases pyDispatch .float64 true meth <;> rfl
        | true =>
          simp only [if_true]
          cases unpackOk os with
          | false => rfl
          | true =>
            simp only [if_true, ok_bind', Bool.not_true, Bool.false_eq_true, if_false]
            cases pyOfRes (checkBoundsRegular dims starts steps (os.map Strided.contents) atol
              [false]) with
            | error e => rfl
            | ok flags =>
              simp only [ok_bind']
              cases flags.any id
              · cases pyDispatch .float64 true meth <;> rfl
              · rfl
      | false =>
        simp only [Bool.false_eq_true, if_false]
        cases hge : pyEach MemArray.extract64 grids with
        | error e => cases checkB <;> cases pyDispatch .float64 false meth <;> rfl
        | ok gs =>
          simp only [ok_bind', Except.map, unpackOk_map, unpackFrom_zero os (ho2 os hoe),
            unpackFrom_zero gs (hg2 gs hge)]
          have raw : ∀ call : RawCall, (do
              let out ← out.extract64
              let r ← memRawRectilinear fma call.method gs vals lin os out
              pure (call, r) : Except PyExc (RawCall × Strided F64)) = (do
              let out ← out.contents.asF64
              let r ← rawRectilinear fma call.method (gs.map Strided.contents) vals.contents lin
                (os.map Strided.contents) out
              pure (call, r) : Except PyExc (RawCall × List F64)).map
                fun q => (q.1, out.strided64.write q.2) := by
            intro call
            rcases extract64_out out hout with ⟨h1, h2, h3⟩ | ⟨h1, h2⟩
            · simp only [h1, h2, ok_bind',
                memRawRectilinear_good fma _ gs vals lin os _ hv (hg2 gs hge) (ho2 os hoe) h3]
              exact finish
            · simp only [h1, h2]; rfl
          simp only [raw]
          cases checkB with
          | false => cases pyDispatch .float64 false meth <;> rfl
          | true =>
            simp only [if_true]
            cases unpackOk os with
            | false => cases unpackOk gs <;> rfl
            | true =>
              cases unpackOk gs with
              | false => rfl
              | true =>
                simp only [if_true, ok_bind', Bool.not_true, Bool.and_self, Bool.false_eq_true,
                  if_false]
                cases pyOfRes (checkBoundsRectilinear (gs.map Strided.contents)
                    (os.map Strided.contents) atol [false]) with
                | error e => rfl
                | ok flags =>
                  simp only [ok_bind']
                  cases flags.any id
                  · cases pyDispatch .float64 false meth <;> rfl
                  · rfl
  cases assume with
  | true =>
    cases hP : pyEach (NpArray.startStep64 np nx) gc with
    | error e => rfl
    | ok params => exact tail true _ _ _
  | false =>
    cases npCheckRegular nx true gc with
    | error e => rfl
    | ok regular =>
      cases regular with
      | true =>
        cases hP : pyEach (NpArray.startStep64 np nx) gc with
        | error e => rfl
        | ok params => exact tail true _ _ _
      | false => exact tail false _ _ _

/-- The array in memory, if it is of float32. -/
def MemArray.strided32 : MemArray F32 F64 X → Strided F32
  | .f32 a => a
  | _ => ⟨[], 0, [], []⟩

theorem extract32_out (out : MemArray F32 F64 X) (hout : out.Good) :
    (out.extract32 = .ok out.strided32 ∧ out.contents.asF32 = .ok out.strided32.contents ∧
      out.strided32.Good) ∨
    (out.extract32 = .error .typeError ∧ out.contents.asF32 = .error .typeError) := by
  cases out with
  | f32 a =>
    left
    refine ⟨?_, rfl, hout⟩
    change (if (a.shape.length == 1) = true then _ else _) = _
    rw [show a.shape.length = 1 from hout.2.1]
    rfl
  | f64 a => exact .inr ⟨rfl, rfl⟩
  | other a => exact .inr ⟨rfl, rfl⟩

/-- On flat contiguous arrays: the result of `npInterpn32`, written into `out`. -/
theorem memInterpn32_good (np : Numpy F32 F64 X) (nx : NumpyX X) (fma : Bool)
    (obs grids : List (MemArray F32 F64 X)) (vals : Strided F32) (meth : String)
    (out : MemArray F32 F64 X) (lin assume checkB : Bool) (atol : F64)
    (ho : ∀ a ∈ obs, a.Good) (hg : ∀ a ∈ grids, a.Good) (hv : vals.Good) (hout : out.Good) :
    memInterpn32 np nx fma obs grids vals meth out lin assume checkB atol =
      (npInterpn32 np nx fma (obs.map MemArray.contents) (grids.map MemArray.contents) vals.contents
        meth out.contents lin assume checkB atol).map
        fun q => (q.1, out.strided32.write q.2) := by
  obtain ⟨ho1, ho2⟩ := extract32_each obs ho
  obtain ⟨hg1, hg2⟩ := extract32_each grids hg
  unfold memInterpn32 npInterpn32
  simp only [ho1, hg1]
  generalize grids.map MemArray.contents = gc
  have tail : ∀ (regular : Bool) (dims : List Nat) (starts steps : List F32),
      (do
        if checkB then
          let flags ←
            if regular then do
              let obs ← pyEach MemArray.extract32 obs
              let obs ← unpackFrom 0 obs
              pyOfRes (checkBoundsRegular dims starts steps obs (np.f32of64 atol) [false])
            else do
              let grids ← pyEach MemArray.extract32 grids
              let obs ← pyEach MemArray.extract32 obs
              let grids ← unpackFrom 0 grids
              let obs ← unpackFrom 0 obs
              pyOfRes (checkBoundsRectilinear grids obs (np.f32of64 atol) [false])
          if flags.any id then .error (.valueError "Observation points violate interpolator bounds")
        let call ← pyDispatch .float32 regular meth
        let r ←
          if regular then do
            let obs ← pyEach MemArray.extract32 obs
            let out ← out.extract32
            memRawRegular fma call.method dims starts steps vals lin obs out
          else do
            let grids ← pyEach MemArray.extract32 grids
            let obs ← pyEach MemArray.extract32 obs
            let out ← out.extract32
            memRawRectilinear fma call.method grids vals lin obs out
        return (call, r) : Except PyExc (RawCall × Strided F32)) =
      (do
        if checkB then
          let flags ←
            if regular then do
              let obs ← (pyEach MemArray.extract32 obs).map (List.map Strided.contents)
              if !unpackOk obs then .error .panicException
              else pyOfRes (checkBoundsRegular dims starts steps obs (np.f32of64 atol) [false])
            else do
              let grids ← (pyEach MemArray.extract32 grids).map (List.map Strided.contents)
              let obs ← (pyEach MemArray.extract32 obs).map (List.map Strided.contents)
              if !(unpackOk grids && unpackOk obs) then .error .panicException
              else pyOfRes (checkBoundsRectilinear grids obs (np.f32of64 atol) [false])
          if flags.any id then .error (.valueError "Observation points violate interpolator bounds")
        let call ← pyDispatch .float32 regular meth
        let r ←
          if regular then do
            let obs ← (pyEach MemArray.extract32 obs).map (List.map Strided.contents)
            let out ← out.contents.asF32
            rawRegular fma call.method dims starts steps vals.contents lin obs out
          else do
            let grids ← (pyEach MemArray.extract32 grids).map (List.map Strided.contents)
            let obs ← (pyEach MemArray.extract32 obs).map (List.map Strided.contents)
            let out ← out.contents.asF32
            rawRectilinear fma call.method grids vals.contents lin obs out
        return (call, r) : Except PyExc (RawCall × List F32)).map
          fun q => (q.1, out.strided32.write q.2) := by
    intro regular dims starts steps
    have finish : ∀ {call : RawCall} {E : Except PyExc (List F32)},
        ((E.map out.strided32.write >>= fun r => pure (call, r)) :
          Except PyExc (RawCall × Strided F32)) =
        ((E >>= fun r => pure (call, r)) : Except PyExc (RawCall × List F32)).map
          fun q => (q.1, out.strided32.write q.2) := by
      intro call E; cases E <;> rfl
    cases hoe : pyEach MemArray.extract32 obs with
    | error e =>
      cases hge : pyEach MemArray.extract32 grids <;> cases regular <;> cases checkB <;>
        cases pyDispatch .float32 _ meth <;> rfl
    | ok os =>
      cases regular with
      | true =>
        simp only [if_true, ok_bind', Except.map, unpackOk_map, unpackFrom_zero os (ho2 os hoe)]
        have raw : ∀ call : RawCall, (do
            let out ← out.extract32
            let r ← memRawRegular fma call.method dims starts steps vals lin os out
            pure (call, r) : Except PyExc (RawCall × Strided F32)) = (do
            let out ← out.contents.asF32
            let r ← rawRegular fma call.method dims starts steps vals.contents lin
              (os.map Strided.contents) out
            pure (call, r) : Except PyExc (RawCall × List F32)).map
              fun q => (q.1, out.strided32.write q.2) := by
          intro call
          rcases extract32_out out hout with ⟨h1, h2, h3⟩ | ⟨h1, h2⟩
          · simp only [h1, h2, ok_bind',
              memRawRegular_good fma _ dims starts steps vals lin os _ hv (ho2 os hoe) h3]
            exact finish
          · simp only [h1, h2]; rfl
        simp only [raw]
        cases checkB with
        | false => cases pyDispatch .float32 true meth <;> rfl
        | true =>
          simp only [if_true]
          cases unpackOk os with
          | false => rfl
          | true =>
            simp only [if_true, ok_bind', Bool.not_true, Bool.false_eq_true, if_false]
            cases pyOfRes (checkBoundsRegular dims starts steps (os.map Strided.contents) (np.f32of64 atol)
              [false]) with
            | error e => rfl
            | ok flags =>
              simp only [ok_bind']
              cases flags.any id
              · cases pyDispatch .float32 true meth <;> rfl
              · rfl
      | false =>
        simp only [Bool.false_eq_true, if_false]
        cases hge : pyEach MemArray.extract32 grids with
        | error e => cases checkB <;> cases pyDispatch .float32 false meth <;> rfl
        | ok gs =>
          simp only [ok_bind', Except.map, unpackOk_map, unpackFrom_zero os (ho2 os hoe),
            unpackFrom_zero gs (hg2 gs hge)]
          have raw : ∀ call : RawCall, (do
              let out ← out.extract32
              let r ← memRawRectilinear fma call.method gs vals lin os out
              pure (call, r) : Except PyExc (RawCall × Strided F32)) = (do
              let out ← out.contents.asF32
              let r ← rawRectilinear fma call.method (gs.map Strided.contents) vals.contents lin
                (os.map Strided.contents) out
              pure (call, r) : Except PyExc (RawCall × List F32)).map
                fun q => (q.1, out.strided32.write q.2) := by
            intro call
            rcases extract32_out out hout with ⟨h1, h2, h3⟩ | ⟨h1, h2⟩
            · simp only [h1, h2, ok_bind',
                memRawRectilinear_good fma _ gs vals lin os _ hv (hg2 gs hge) (ho2 os hoe) h3]
              exact finish
            · simp only [h1, h2]; rfl
          simp only [raw]
          cases checkB with
          | false => cases pyDispatch .float32 false meth <;> rfl
          | true =>
            simp only [if_true]
            cases unpackOk os with
            | false => cases unpackOk gs <;> rfl
            | true =>
              cases unpackOk gs with
              | false => rfl
              | true =>
                simp only [if_true, ok_bind', Bool.not_true, Bool.and_self, Bool.false_eq_true,
                  if_false]
                cases pyOfRes (checkBoundsRectilinear (gs.map Strided.contents)
                    (os.map Strided.contents) (np.f32of64 atol) [false]) with
                | error e => rfl
                | ok flags =>
                  simp only [ok_bind']
                  cases flags.any id
                  · cases pyDispatch .float32 false meth <;> rfl
                  · rfl
  cases assume with
  | true =>
    cases hP : pyEach (NpArray.startStep32 np nx) gc with
    | error e => rfl
    | ok params => exact tail true _ _ _
  | false =>
    cases npCheckRegular nx true gc with
    | error e => rfl
    | ok regular =>
      cases regular with
      | true =>
        cases hP : pyEach (NpArray.startStep32 np nx) gc with
        | error e => rfl
        | ok params => exact tail true _ _ _
      | false => exact tail false _ _ _

theorem bind_ok {α β : Type} {x : Except PyExc α} {f : α → Except PyExc β} {b : β}
    (h : (x >>= f) = .ok b) : ∃ a, x = .ok a ∧ f a = .ok b := by
  cases x with
  | error e => cases h
  | ok a => exact ⟨a, rfl, h⟩

/-- The result is as long as `out`. -/
theorem npInterpn64_length {np : Numpy F32 F64 X} {nx : NumpyX X} {fma : Bool}
    {obs grids : List (NpArray F32 F64 X)} {vals : List F64} {meth : String}
    {out : NpArray F32 F64 X} {lin assume checkB : Bool} {atol : F64} {call : RawCall}
    {r : List F64}
    (h : npInterpn64 np nx fma obs grids vals meth out lin assume checkB atol = .ok (call, r)) :
    ∃ o, out.asF64 = .ok o ∧ r.length = o.length := by
  unfold npInterpn64 at h
  simp only at h
  have reg : ∀ {call' : RawCall} {dims : List Nat} {starts steps : List F64},
      (pyEach NpArray.asF64 obs >>= fun obs => out.asF64 >>= fun out =>
        rawRegular fma call'.method dims starts steps vals lin obs out >>= fun r =>
        (pure (call', r) : Except PyExc (RawCall × List F64))) = .ok (call, r) →
      ∃ o, out.asF64 = .ok o ∧ r.length = o.length := by
    intro call' dims starts steps h
    cases ho : pyEach NpArray.asF64 obs with
    | error e => rw [ho] at h; cases h
    | ok os =>
      cases hu : out.asF64 with
      | error e => rw [ho, hu] at h; cases h
      | ok o =>
        rw [ho, hu, ok_bind', ok_bind'] at h
        cases hr : rawRegular fma call'.method dims starts steps vals lin os o with
        | error e => rw [hr] at h; cases h
        | ok q => rw [hr] at h; cases h; exact ⟨o, rfl, rawRegular_length hr⟩
  have rect : ∀ {call' : RawCall},
      (pyEach NpArray.asF64 grids >>= fun grids => pyEach NpArray.asF64 obs >>= fun obs =>
        out.asF64 >>= fun out =>
        rawRectilinear fma call'.method grids vals lin obs out >>= fun r =>
        (pure (call', r) : Except PyExc (RawCall × List F64))) = .ok (call, r) →
      ∃ o, out.asF64 = .ok o ∧ r.length = o.length := by
    intro call' h
    cases hg : pyEach NpArray.asF64 grids with
    | error e => rw [hg] at h; cases h
    | ok gs =>
      cases ho : pyEach NpArray.asF64 obs with
      | error e => rw [hg, ho] at h; cases h
      | ok os =>
        cases hu : out.asF64 with
        | error e => rw [hg, ho, hu] at h; cases h
        | ok o =>
          rw [hg, ho, hu, ok_bind', ok_bind', ok_bind'] at h
          cases hr : rawRectilinear fma call'.method gs vals lin os o with
          | error e => rw [hr] at h; cases h
          | ok q => rw [hr] at h; cases h; exact ⟨o, rfl, rawRectilinear_length hr⟩
  cases assume <;> cases checkB
  all_goals
    simp only [if_true, Bool.false_eq_true, if_false] at h
    obtain ⟨regular, -, h⟩ := bind_ok h
    cases regular <;> simp only [if_true, Bool.false_eq_true, if_false] at h
    all_goals
      repeat' first
        | exact reg h
        | exact rect h
        | (obtain ⟨_, -, h⟩ := bind_ok h)
        | (split at h)

/-- The result is as long as `out`. -/
theorem npInterpn32_length {np : Numpy F32 F64 X} {nx : NumpyX X} {fma : Bool}
    {obs grids : List (NpArray F32 F64 X)} {vals : List F32} {meth : String}
    {out : NpArray F32 F64 X} {lin assume checkB : Bool} {atol : F64} {call : RawCall}
    {r : List F32}
    (h : npInterpn32 np nx fma obs grids vals meth out lin assume checkB atol = .ok (call, r)) :
    ∃ o, out.asF32 = .ok o ∧ r.length = o.length := by
  unfold npInterpn32 at h
  simp only at h
  have reg : ∀ {call' : RawCall} {dims : List Nat} {starts steps : List F32},
      (pyEach NpArray.asF32 obs >>= fun obs => out.asF32 >>= fun out =>
        rawRegular fma call'.method dims starts steps vals lin obs out >>= fun r =>
        (pure (call', r) : Except PyExc (RawCall × List F32))) = .ok (call, r) →
      ∃ o, out.asF32 = .ok o ∧ r.length = o.length := by
    intro call' dims starts steps h
    cases ho : pyEach NpArray.asF32 obs with
    | error e => rw [ho] at h; cases h
    | ok os =>
      cases hu : out.asF32 with
      | error e => rw [ho, hu] at h; cases h
      | ok o =>
        rw [ho, hu, ok_bind', ok_bind'] at h
        cases hr : rawRegular fma call'.method dims starts steps vals lin os o with
        | error e => rw [hr] at h; cases h
        | ok q => rw [hr] at h; cases h; exact ⟨o, rfl, rawRegular_length hr⟩
  have rect : ∀ {call' : RawCall},
      (pyEach NpArray.asF32 grids >>= fun grids => pyEach NpArray.asF32 obs >>= fun obs =>
        out.asF32 >>= fun out =>
        rawRectilinear fma call'.method grids vals lin obs out >>= fun r =>
        (pure (call', r) : Except PyExc (RawCall × List F32))) = .ok (call, r) →
      ∃ o, out.asF32 = .ok o ∧ r.length = o.length := by
    intro call' h
    cases hg : pyEach NpArray.asF32 grids with
    | error e => rw [hg] at h; cases h
    | ok gs =>
      cases ho : pyEach NpArray.asF32 obs with
      | error e => rw [hg, ho] at h; cases h
      | ok os =>
        cases hu : out.asF32 with
        | error e => rw [hg, ho, hu] at h; cases h
        | ok o =>
          rw [hg, ho, hu, ok_bind', ok_bind', ok_bind'] at h
          cases hr : rawRectilinear fma call'.method gs vals lin os o with
          | error e => rw [hr] at h; cases h
          | ok q => rw [hr] at h; cases h; exact ⟨o, rfl, rawRectilinear_length hr⟩
  cases assume <;> cases checkB
  all_goals
    simp only [if_true, Bool.false_eq_true, if_false] at h
    obtain ⟨regular, -, h⟩ := bind_ok h
    cases regular <;> simp only [if_true, Bool.false_eq_true, if_false] at h
    all_goals
      repeat' first
        | exact reg h
        | exact rect h
        | (obtain ⟨_, -, h⟩ := bind_ok h)
        | (split at h)

end Interpn
