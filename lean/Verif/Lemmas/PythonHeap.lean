import Verif.Lemmas.PythonLayout
import Verif.Spec.PythonHeap

/-! The memory model of the Python interface: what each step reads, allocates and writes. -/

set_option autoImplicit false

namespace Interpn
open FloatOps

section
variable {F32 F64 X : Type}

/-! #### The monad -/

theorem pyM_bind {α β : Type} (x : PyM F32 F64 X α) (f : α → PyM F32 F64 X β) (h : Heap F32 F64 X) :
    (x >>= f) h = match x h with
      | (.ok a, h') => f a h'
      | (.error e, h') => (.error e, h') := rfl

theorem pyM_bind_ok {α β : Type} {x : PyM F32 F64 X α} {f : α → PyM F32 F64 X β}
    {h h' : Heap F32 F64 X} {a : α} (hx : x h = (.ok a, h')) : (x >>= f) h = f a h' := by
  rw [pyM_bind, hx]

theorem pyM_bind_error {α β : Type} {x : PyM F32 F64 X α} {f : α → PyM F32 F64 X β}
    {h h' : Heap F32 F64 X} {e : PyExc} (hx : x h = (.error e, h')) :
    (x >>= f) h = (.error e, h') := by
  rw [pyM_bind, hx]

theorem pyM_pure {α : Type} (a : α) (h : Heap F32 F64 X) :
    (pure a : PyM F32 F64 X α) h = (.ok a, h) := rfl

theorem pyM_ofExcept_bind {α β : Type} (r : Except PyExc α) (f : α → PyM F32 F64 X β)
    (h : Heap F32 F64 X) : (PyM.ofExcept r >>= f) h = match r with
      | .ok a => f a h
      | .error e => (.error e, h) := by
  cases r <;> rfl

theorem pyM_read_bind {β : Type} (r : Ref) (f : MemArray F32 F64 X → PyM F32 F64 X β)
    (h : Heap F32 F64 X) : (PyM.read r >>= f) h = f (h.load r) h := rfl

theorem pyM_each_read (l : List Ref) (h : Heap F32 F64 X) :
    PyM.each PyM.read l h = (.ok (l.map h.load), h) := by
  induction l with
  | nil => rfl
  | cons a l ih =>
    change (PyM.read a >>= _) h = _
    rw [pyM_read_bind, pyM_bind_ok ih]
    rfl

/-- The memory only grows. -/
def Grows {α : Type} (x : PyM F32 F64 X α) : Prop := ∀ h, h <+: (x h).2

theorem Grows.bind {α β : Type} {x : PyM F32 F64 X α} {f : α → PyM F32 F64 X β} (hx : Grows x)
    (hf : ∀ a, Grows (f a)) : Grows (x >>= f) := by
  intro h
  have h1 := hx h
  rw [pyM_bind]
  generalize hxh : x h = r at h1
  obtain ⟨r, h'⟩ := r
  cases r with
  | ok a => exact h1.trans (hf a h')
  | error e => exact h1

theorem grows_pure {α : Type} (a : α) : Grows (pure a : PyM F32 F64 X α) :=
  fun _ => List.prefix_rfl

theorem grows_ofExcept {α : Type} (r : Except PyExc α) : Grows (PyM.ofExcept r : PyM F32 F64 X α) :=
  fun _ => List.prefix_rfl

theorem grows_read (r : Ref) : Grows (PyM.read r : PyM F32 F64 X _) := fun _ => List.prefix_rfl

theorem grows_alloc (d : NpArray F32 F64 X) (s : List Nat) : Grows (PyM.alloc d s) :=
  fun h => List.prefix_append h [d]

theorem grows_each {α β : Type} {f : α → PyM F32 F64 X β} (hf : ∀ a, Grows (f a)) :
    ∀ l : List α, Grows (PyM.each f l)
  | [] => grows_pure _
  | a :: rest => (hf a).bind fun _ => (grows_each hf rest).bind fun _ => grows_pure _

theorem grows_ite {α : Type} (c : Prop) [Decidable c] {x y : PyM F32 F64 X α} (hx : Grows x)
    (hy : Grows y) : Grows (if c then x else y) := by
  split
  · exact hx
  · exact hy

/-! #### Arrays in a memory that has grown -/

theorem load_of_getElem? {h h' : Heap F32 F64 X} {r : Ref} (e : h'[r.buf]? = h[r.buf]?) :
    h'.load r = h.load r := by
  unfold Heap.load
  rw [e]

theorem prefix_get {α : Type} {h h' : List α} (p : h <+: h') {b : Nat} (hb : b < h.length) :
    h'[b]? = h[b]? := by
  obtain ⟨t, rfl⟩ := p
  rw [List.getElem?_append_left hb]

theorem load_of_prefix {h h' : Heap F32 F64 X} (p : h <+: h') {r : Ref} (hr : r.buf < h.length) :
    h'.load r = h.load r :=
  load_of_getElem? (prefix_get p hr)

theorem Ref.In.mono {h h' : Heap F32 F64 X} (p : h <+: h') {r : Ref} (hr : r.In h) : r.In h' :=
  ⟨lt_of_lt_of_le hr.1 p.length_le, by rw [load_of_prefix p hr.1]; exact hr.2⟩

theorem Ref.Field.mono {h h' : Heap F32 F64 X} (p : h <+: h') {r : Ref} (hr : r.Field h) :
    r.Field h' := by
  refine ⟨hr.1.mono p, ?_, ?_⟩
  · rw [load_of_prefix p hr.1.1]; exact hr.2.1
  · rw [load_of_prefix p hr.1.1]; exact hr.2.2

theorem arr_of_load {h h' : Heap F32 F64 X} {r : Ref} (e : h'.load r = h.load r) :
    h'.arr r = h.arr r := by
  unfold Heap.arr
  rw [e]

theorem positions_f64 {h : Heap F32 F64 X} {r : Ref} {a : Strided F64} (e : h.load r = .f64 a) :
    h[r.buf]? = some (.f64 a.buffer) ∧ a = ⟨a.buffer, r.offset, r.shape, r.strides⟩ := by
  unfold Heap.load at e
  split at e
  · cases e
  · rename_i d hd
    cases e
    exact ⟨hd, rfl⟩
  · cases e
  · cases e

theorem positions_f32 {h : Heap F32 F64 X} {r : Ref} {a : Strided F32} (e : h.load r = .f32 a) :
    h[r.buf]? = some (.f32 a.buffer) ∧ a = ⟨a.buffer, r.offset, r.shape, r.strides⟩ := by
  unfold Heap.load at e
  split at e
  · rename_i d hd
    cases e
    exact ⟨hd, rfl⟩
  · cases e
  · cases e
  · cases e

theorem load_shape (h : Heap F32 F64 X) (r : Ref) : (h.load r).shape = r.shape := by
  unfold Heap.load
  split <;> rfl

theorem load_other {h : Heap F32 F64 X} {r : Ref} {a : Strided X} (e : h.load r = .other a)
    (hr : r.buf < h.length) :
    h[r.buf]? = some (.other a.buffer) ∧ a = ⟨a.buffer, r.offset, r.shape, r.strides⟩ := by
  unfold Heap.load at e
  split at e
  · cases e
  · cases e
  · rename_i d hd
    cases e
    exact ⟨hd, rfl⟩
  · rename_i hd
    rw [List.getElem?_eq_none_iff] at hd
    omega

/-- An array of its own, in C order. -/
def NpArray.owned (shape : List Nat) : NpArray F32 F64 X → MemArray F32 F64 X
  | .f32 d => .f32 ⟨d, 0, shape, Strided.cStrides shape⟩
  | .f64 d => .f64 ⟨d, 0, shape, Strided.cStrides shape⟩
  | .other d => .other ⟨d, 0, shape, Strided.cStrides shape⟩

theorem load_alloc (h : Heap F32 F64 X) (d : NpArray F32 F64 X) (shape : List Nat) (t : Heap F32 F64 X)
    (p : (h ++ [d]) <+: t) :
    Heap.load t ⟨h.length, 0, shape, Strided.cStrides shape, true⟩ = d.owned shape := by
  rw [load_of_prefix p (by simp)]
  unfold Heap.load
  rw [List.getElem?_concat_length]
  cases d <;> rfl

/-! #### Views and copies -/

/-- `x` gives an array, in a memory that has grown, that lies there like `a`; it is in the buffer `b`
or in a new one. -/
def Gives (x : PyM F32 F64 X Ref) (h : Heap F32 F64 X) (b : Nat) (a : MemArray F32 F64 X) : Prop :=
  ∃ r h', x h = (.ok r, h') ∧ h <+: h' ∧ r.buf < h'.length ∧ h'.load r = a ∧
    (r.buf = b ∨ h.length ≤ r.buf)

theorem gives_ravel (r : Ref) (h : Heap F32 F64 X) (hr : r.buf < h.length) :
    Gives (heapRavel r) h r.buf (h.load r).ravel := by
  unfold Gives heapRavel
  rw [pyM_read_bind]
  by_cases hc : (h.load r).cContiguous = true
  · rw [if_pos hc]
    refine ⟨_, _, rfl, List.prefix_rfl, hr, ?_, .inl rfl⟩
    cases hl : h.load r with
    | f32 a =>
      rw [hl] at hc
      obtain ⟨e1, e2⟩ := positions_f32 hl
      simp only [MemArray.ravel, Strided.ravel, show a.cContiguous = true from hc, if_true]
      simp only [Heap.load, Ref.reshape, e1, Strided.reshape, MemArray.shape]
      rw [e2]
    | f64 a =>
      rw [hl] at hc
      obtain ⟨e1, e2⟩ := positions_f64 hl
      simp only [MemArray.ravel, Strided.ravel, show a.cContiguous = true from hc, if_true]
      simp only [Heap.load, Ref.reshape, e1, Strided.reshape, MemArray.shape]
      rw [e2]
    | other a =>
      rw [hl] at hc
      obtain ⟨e1, e2⟩ := load_other hl hr
      simp only [MemArray.ravel, Strided.ravel, show a.cContiguous = true from hc, if_true]
      simp only [Heap.load, Ref.reshape, e1, Strided.reshape, MemArray.shape]
      rw [e2]
  · rw [if_neg hc]
    refine ⟨_, _, rfl, List.prefix_append _ _, by simp, ?_, .inr le_rfl⟩
    rw [load_alloc _ _ _ _ List.prefix_rfl]
    cases hl : h.load r with
    | f32 a =>
      rw [hl] at hc
      simp only [MemArray.ravel, Strided.ravel, show ¬ a.cContiguous = true from hc]
      rfl
    | f64 a =>
      rw [hl] at hc
      simp only [MemArray.ravel, Strided.ravel, show ¬ a.cContiguous = true from hc]
      rfl
    | other a =>
      rw [hl] at hc
      simp only [MemArray.ravel, Strided.ravel, show ¬ a.cContiguous = true from hc]
      rfl

theorem gives_asContiguous (r : Ref) (h : Heap F32 F64 X) (hr : r.buf < h.length) :
    Gives (heapAsContiguous r) h r.buf (h.load r).asContiguous := by
  unfold Gives heapAsContiguous
  rw [pyM_read_bind]
  by_cases hc : (h.load r).cContiguous = true
  · rw [if_pos hc]
    refine ⟨_, _, rfl, List.prefix_rfl, hr, ?_, .inl rfl⟩
    cases hl : h.load r with
    | f32 a =>
      rw [hl] at hc
      simp only [MemArray.asContiguous, Strided.asContiguous, show a.cContiguous = true from hc, if_true]
    | f64 a =>
      rw [hl] at hc
      simp only [MemArray.asContiguous, Strided.asContiguous, show a.cContiguous = true from hc, if_true]
    | other a =>
      rw [hl] at hc
      simp only [MemArray.asContiguous, Strided.asContiguous, show a.cContiguous = true from hc, if_true]
  · rw [if_neg hc]
    refine ⟨_, _, rfl, List.prefix_append _ _, by simp, ?_, .inr le_rfl⟩
    rw [load_alloc _ _ _ _ List.prefix_rfl]
    cases hl : h.load r with
    | f32 a =>
      rw [hl] at hc
      simp only [MemArray.asContiguous, Strided.asContiguous, show ¬ a.cContiguous = true from hc]
      rfl
    | f64 a =>
      rw [hl] at hc
      simp only [MemArray.asContiguous, Strided.asContiguous, show ¬ a.cContiguous = true from hc]
      rfl
    | other a =>
      rw [hl] at hc
      simp only [MemArray.asContiguous, Strided.asContiguous, show ¬ a.cContiguous = true from hc]
      rfl

theorem gives_flat (r : Ref) (h : Heap F32 F64 X) (hr : r.buf < h.length) :
    Gives (do heapAsContiguous (← heapRavel r)) h r.buf (h.load r).ravel.asContiguous := by
  obtain ⟨r1, h1, e1, p1, l1, a1, b1⟩ := gives_ravel r h hr
  obtain ⟨r2, h2, e2, p2, l2, a2, b2⟩ := gives_asContiguous r1 h1 l1
  refine ⟨r2, h2, ?_, p1.trans p2, l2, by rw [a2, a1], ?_⟩
  · rw [pyM_bind_ok e1, e2]
  · have := p1.length_le
    rcases b2 with b2 | b2
    · rcases b1 with b1 | b1
      · exact .inl (b2.trans b1)
      · exact .inr (by omega)
    · exact .inr (by omega)

theorem gives_each (l : List Ref) : ∀ (h : Heap F32 F64 X), (∀ r ∈ l, r.buf < h.length) →
    ∃ rs h', PyM.each (fun x => do heapAsContiguous (← heapRavel x)) l h = (.ok rs, h') ∧ h <+: h' ∧
      (∀ r ∈ rs, r.buf < h'.length) ∧
      rs.map h'.load = (l.map h.load).map (fun a => a.ravel.asContiguous) ∧
      ∀ r ∈ rs, (∃ r0 ∈ l, r.buf = r0.buf) ∨ h.length ≤ r.buf := by
  induction l with
  | nil => exact fun h _ => ⟨[], h, rfl, List.prefix_rfl, by simp, rfl, by simp⟩
  | cons r l ih =>
    intro h hl
    obtain ⟨r1, h1, e1, p1, l1, a1, b1⟩ := gives_flat r h (hl r (by simp))
    have hlen := p1.length_le
    obtain ⟨rs, h2, e2, p2, l2, a2, b2⟩ := ih h1 fun r' hr' =>
      lt_of_lt_of_le (hl r' (by simp [hr'])) hlen
    refine ⟨r1 :: rs, h2, ?_, p1.trans p2, ?_, ?_, ?_⟩
    · change (_ >>= _ : PyM F32 F64 X _) h = _
      rw [pyM_bind_ok e1, pyM_bind_ok e2]
      rfl
    · intro r' hr'
      rcases List.mem_cons.1 hr' with rfl | hr'
      · exact lt_of_lt_of_le l1 p2.length_le
      · exact l2 r' hr'
    · simp only [List.map_cons]
      rw [load_of_prefix p2 l1, a1, a2]
      congr 2
      apply List.map_congr_left
      intro r' hr'
      exact load_of_prefix p1 (hl r' (by simp [hr']))
    · intro r' hr'
      rcases List.mem_cons.1 hr' with rfl | hr'
      · rcases b1 with b1 | b1
        · exact .inl ⟨r, by simp, b1⟩
        · exact .inr b1
      · rcases b2 r' hr' with ⟨r0, h0, e0⟩ | hb
        · exact .inl ⟨r0, by simp [h0], e0⟩
        · exact .inr (by omega)

theorem grows_ravel (r : Ref) : Grows (heapRavel r : PyM F32 F64 X Ref) :=
  (grows_read r).bind fun _ => grows_ite _ (grows_pure _) (grows_alloc _ _)

theorem grows_asContiguous (r : Ref) : Grows (heapAsContiguous r : PyM F32 F64 X Ref) :=
  (grows_read r).bind fun _ => grows_ite _ (grows_pure _) (grows_alloc _ _)

theorem grows_flatten (r : Ref) : Grows (heapFlatten r : PyM F32 F64 X Ref) :=
  (grows_read r).bind fun _ => grows_alloc _ _

theorem grows_array (np : Numpy F32 F64 X) (b : Bool) (r : Ref) : Grows (heapArray np b r) :=
  (grows_read r).bind fun _ => (grows_alloc _ _).bind fun _ => grows_asContiguous _

/-! #### Fields of the classes -/

theorem owned_contents (d : NpArray F32 F64 X) (shape : List Nat) (hd : d.size = shape.prod) :
    (d.owned shape).contents = d ∧ (d.owned shape).WellFormed ∧ (d.owned shape).cContiguous = true ∧
      (d.owned shape).shape = shape := by
  cases d with
  | f32 d =>
    have hd : d.length = shape.prod := hd
    refine ⟨?_, Strided.wellFormed_cStrides _ _ _ (.inl (by simp [hd])),
      Strided.cContiguous_of_cStrides _ rfl, rfl⟩
    simp only [NpArray.owned, MemArray.contents, Strided.contents_cStrides]
    simp [← hd]
  | f64 d =>
    have hd : d.length = shape.prod := hd
    refine ⟨?_, Strided.wellFormed_cStrides _ _ _ (.inl (by simp [hd])),
      Strided.cContiguous_of_cStrides _ rfl, rfl⟩
    simp only [NpArray.owned, MemArray.contents, Strided.contents_cStrides]
    simp [← hd]
  | other d =>
    have hd : d.length = shape.prod := hd
    refine ⟨?_, Strided.wellFormed_cStrides _ _ _ (.inl (by simp [hd])),
      Strided.cContiguous_of_cStrides _ rfl, rfl⟩
    simp only [NpArray.owned, MemArray.contents, Strided.contents_cStrides]
    simp [← hd]

theorem contents_size (a : MemArray F32 F64 X) (ha : a.WellFormed) : a.contents.size = a.shape.prod := by
  cases a with
  | f32 a => exact a.contents_length ha
  | f64 a => exact a.contents_length ha
  | other a => exact a.contents_length ha

/-- The element type picked in `new`. -/
def castArr (np : Numpy F32 F64 X) (is64 : Bool) (a : NpArray F32 F64 X) : Arr F32 F64 :=
  if is64 then a.toArrayF64 np else a.toArrayF32 np

theorem castArr_size (np : Numpy F32 F64 X) (is64 : Bool) (a : NpArray F32 F64 X) :
    NpArray.size (Arr.toNp (X := X) (castArr np is64 a)) = a.size := by
  unfold castArr
  cases is64 <;> cases a <;>
    simp [NpArray.toArrayF32, NpArray.toArrayF64, Arr.toNp, NpArray.size]

theorem toNp_owned_contiguous1 (a : Arr F32 F64) (n : Nat) :
    (NpArray.owned (X := X) [n] a.toNp).Contiguous1 ∧
      ∀ b, NpArray.owned (X := X) [n] a.toNp ≠ .other b := by
  cases a with
  | f32 d => exact ⟨⟨n, 1, rfl, by simp [Strided.cStrides], .inr rfl⟩, fun b hb => by cases hb⟩
  | f64 d => exact ⟨⟨n, 1, rfl, by simp [Strided.cStrides], .inr rfl⟩, fun b hb => by cases hb⟩

/-- `arrtype(data=a.flatten())`: a new array, with the elements of `a`, converted. -/
theorem field_spec (np : Numpy F32 F64 X) (is64 : Bool) (r : Ref) (h : Heap F32 F64 X)
    (hr : (h.load r).WellFormed) :
    ∃ f h', (do heapArray np is64 (← heapFlatten r)) h = (.ok f, h') ∧ h <+: h' ∧
      h.length ≤ f.buf ∧ f.buf + 1 = h'.length ∧ f.Field h' ∧
      Heap.arr h' f = castArr np is64 (h.load r).contents := by
  have hsz := contents_size _ hr
  set a := h.load r with ha
  set n := a.shape.prod with hn
  set d1 : NpArray F32 F64 X := a.contents
  set h1 : Heap F32 F64 X := h ++ [d1] with hh1
  set r1 : Ref := ⟨h.length, 0, [n], Strided.cStrides [n], true⟩ with hr1
  have e1 : heapFlatten r h = (.ok r1, h1) := rfl
  have l1 : h1.load r1 = d1.owned [n] := load_alloc h d1 [n] h1 List.prefix_rfl
  obtain ⟨c1, w1, -, s1⟩ := owned_contents d1 [n] (by rw [hsz]; simp)
  set d2 : NpArray F32 F64 X := (castArr np is64 d1).toNp
  have hd2 : d2.size = [n].prod := by rw [castArr_size, hsz]; simp
  set h2 : Heap F32 F64 X := h1 ++ [d2]
  set r2 : Ref := ⟨h1.length, 0, [n], Strided.cStrides [n], true⟩
  have l2 : h2.load r2 = d2.owned [n] := load_alloc h1 d2 [n] h2 List.prefix_rfl
  obtain ⟨c2, w2, k2, s2⟩ := owned_contents d2 [n] hd2
  have e2 : heapArray np is64 r1 h1 = (.ok r2, h2) := by
    unfold heapArray
    rw [pyM_read_bind, l1, c1, s1]
    change (PyM.alloc d2 [n] >>= fun y => heapAsContiguous y) h1 = _
    rw [pyM_bind_ok (show PyM.alloc d2 [n] h1 = (.ok r2, h2) from rfl)]
    unfold heapAsContiguous
    rw [pyM_read_bind, l2, if_pos k2]
    rfl
  refine ⟨r2, h2, ?_, (List.prefix_append h [d1]).trans (List.prefix_append h1 [d2]), ?_, ?_, ?_, ?_⟩
  · rw [pyM_bind_ok e1, e2]
  · change h.length ≤ h1.length
    simp [hh1]
  · change h1.length + 1 = (h1 ++ [d2]).length
    simp
  · obtain ⟨t1, t2⟩ := toNp_owned_contiguous1 (X := X) (castArr np is64 d1) n
    refine ⟨⟨?_, ?_⟩, ?_, ?_⟩
    · change h1.length < (h1 ++ [d2]).length
      simp
    · rw [l2]; exact w2
    · rw [l2]; exact t1
    · rw [l2]; exact t2
  · unfold Heap.arr
    rw [l2, c2]
    cases ht : castArr np is64 d1 with
    | f32 d => simp only [d2, ht, Arr.toNp]
    | f64 d => simp only [d2, ht, Arr.toNp]

theorem fields_spec (np : Numpy F32 F64 X) (is64 : Bool) (l : List Ref) : ∀ (h : Heap F32 F64 X),
    (∀ r ∈ l, r.In h) →
    ∃ fs h', PyM.each (fun r => do heapArray np is64 (← heapFlatten r)) l h = (.ok fs, h') ∧ h <+: h' ∧
      (∀ f ∈ fs, h.length ≤ f.buf ∧ f.Field h') ∧ (fs.map Ref.buf).Nodup ∧
      fs.map (Heap.arr h') = l.map fun r => castArr np is64 (h.load r).contents := by
  induction l with
  | nil => exact fun h _ => ⟨[], h, rfl, List.prefix_rfl, by simp, by simp, rfl⟩
  | cons r l ih =>
    intro h hl
    obtain ⟨f, h1, e1, p1, b1, b1', F1, a1⟩ := field_spec np is64 r h (hl r (by simp)).2
    obtain ⟨fs, h2, e2, p2, b2, n2, a2⟩ := ih h1 fun r' hr' => (hl r' (by simp [hr'])).mono p1
    refine ⟨f :: fs, h2, ?_, p1.trans p2, ?_, ?_, ?_⟩
    · change (_ >>= _ : PyM F32 F64 X _) h = _
      rw [pyM_bind_ok e1, pyM_bind_ok e2]
      rfl
    · intro f' hf'
      rcases List.mem_cons.1 hf' with rfl | hf'
      · exact ⟨b1, F1.mono p2⟩
      · exact ⟨p1.length_le.trans (b2 f' hf').1, (b2 f' hf').2⟩
    · rw [List.map_cons, List.nodup_cons]
      refine ⟨fun hm => ?_, n2⟩
      obtain ⟨f', hf', e⟩ := List.mem_map.1 hm
      have := (b2 f' hf').1
      omega
    · simp only [List.map_cons]
      rw [arr_of_load (load_of_prefix p2 F1.1.1), a1, a2]
      congr 1
      apply List.map_congr_left
      intro r' hr'
      rw [load_of_prefix p1 (hl r' (by simp [hr'])).1]

end

end Interpn
