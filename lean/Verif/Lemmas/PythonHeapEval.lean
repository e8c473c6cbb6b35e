import Verif.Lemmas.PythonHeapRaw

/-! Evaluation of the classes on shared memory. -/

set_option autoImplicit false

namespace Interpn
open FloatOps

variable {F32 F64 X : Type} [FloatOps F32] [FloatOps F64]

/-! #### The output array -/

theorem zerosLike_spec (np : Numpy F32 F64 X) (r : Ref) (h : Heap F32 F64 X) :
    ∃ h1, heapZerosLike np r h =
        (.ok ⟨h.length, 0, r.shape, Strided.cStrides r.shape, true⟩, h1) ∧ h <+: h1 ∧
      h1.length = h.length + 1 ∧
      Heap.load h1 ⟨h.length, 0, r.shape, Strided.cStrides r.shape, true⟩ = (h.load r).zerosLike np ∧
      ((h.load r).zerosLike np).WellFormed := by
  unfold heapZerosLike
  rw [pyM_read_bind]
  have hs := load_shape h r
  cases hl : h.load r with
  | f32 a =>
    rw [hl] at hs
    simp only [hs]
    refine ⟨_, rfl, List.prefix_append _ _, by simp, ?_, ?_⟩
    · rw [load_alloc _ _ _ _ List.prefix_rfl]
      have hs : a.shape = r.shape := hs
      simp only [MemArray.zerosLike, hs, NpArray.owned]
    · exact Strided.wellFormed_cStrides _ _ _ (.inl (by simp))
  | f64 a =>
    rw [hl] at hs
    simp only [hs]
    refine ⟨_, rfl, List.prefix_append _ _, by simp, ?_, ?_⟩
    · rw [load_alloc _ _ _ _ List.prefix_rfl]
      have hs : a.shape = r.shape := hs
      simp only [MemArray.zerosLike, hs, NpArray.owned]
    · exact Strided.wellFormed_cStrides _ _ _ (.inl (by simp))
  | other a =>
    rw [hl] at hs
    simp only [hs]
    refine ⟨_, rfl, List.prefix_append _ _, by simp, ?_, ?_⟩
    · rw [load_alloc _ _ _ _ List.prefix_rfl]
      have hs : a.shape = r.shape := hs
      simp only [MemArray.zerosLike, hs, NpArray.owned]
    · exact Strided.wellFormed_cStrides _ _ _ (.inl (by simp))

/-- `np.zeros_like(obs[0])`: an array in a new buffer. -/
theorem zerosFirst_spec (np : Numpy F32 F64 X) (obs : List Ref) (h : Heap F32 F64 X) :
    (obs = [] ∧ heapZerosFirst np obs h = (.error .indexError, h)) ∨
    ∃ r rest o h1, obs = r :: rest ∧ heapZerosFirst np obs h = (.ok o, h1) ∧ h <+: h1 ∧
      o.buf = h.length ∧ h1.length = h.length + 1 ∧ o.writeable = true ∧
      h1.load o = (h.load r).zerosLike np ∧ (h1.load o).WellFormed := by
  cases obs with
  | nil => exact .inl ⟨rfl, rfl⟩
  | cons r rest =>
    obtain ⟨h1, e1, p1, l1, a1, w1⟩ := zerosLike_spec np r h
    exact .inr ⟨r, rest, _, h1, rfl, e1, p1, rfl, l1, rfl, a1, by rw [a1]; exact w1⟩

/-- The output array of a class: `out`, or an array in a new buffer. -/
theorem heapOut_spec (np : Numpy F32 F64 X) (obs : List Ref) (out : Option Ref) (h : Heap F32 F64 X)
    (ho : ∀ o ∈ out, o.In h) :
    (heapOut np obs out h = (.error .indexError, h) ∧
      memOut np (obs.map h.load) (out.map h.load) = .error .indexError) ∨
    ∃ o h1, heapOut np obs out h = (.ok o, h1) ∧ h <+: h1 ∧ o.In h1 ∧
      memOut np (obs.map h.load) (out.map h.load) = .ok (h1.load o) ∧
      ((out = some o ∧ h1 = h) ∨ (out = none ∧ o.buf = h.length ∧ o.writeable = true)) := by
  cases out with
  | some o => exact .inr ⟨o, h, rfl, List.prefix_rfl, ho o rfl, rfl, .inl ⟨rfl, rfl⟩⟩
  | none =>
    rcases zerosFirst_spec np obs h with ⟨rfl, e⟩ | ⟨r, rest, o, h1, rfl, e, p, b, l, wr, a, w⟩
    · exact .inl ⟨e, rfl⟩
    · refine .inr ⟨o, h1, e, p, ⟨by omega, w⟩, ?_, .inr ⟨rfl, b, wr⟩⟩
      rw [a]
      rfl

/-! #### The call of the raw routine -/

/-- The call of the raw routine in `eval_unchecked`. -/
def RegularRef.call (B : Borrow) (fma : Bool) (m : RegularRef) (obs : List Ref) (out : Ref) :
    PyM F32 F64 X Unit := fun h =>
  match h.load m.vals with
  | .f64 _ =>
    match pyEach pyUsize m.dims with
    | .ok dims => heapRawRegular64 B fma m.kind.method dims m.starts m.steps m.vals m.kind.lin obs out h
    | .error e => (.error e, h)
  | .f32 _ =>
    match pyEach pyUsize m.dims with
    | .ok dims => heapRawRegular32 B fma m.kind.method dims m.starts m.steps m.vals m.kind.lin obs out h
    | .error e => (.error e, h)
  | .other _ => (.error .typeError, h)

/-- The call of the raw routine in `eval_unchecked`. -/
def RectilinearRef.call (B : Borrow) (fma : Bool) (m : RectilinearRef) (obs : List Ref) (out : Ref) :
    PyM F32 F64 X Unit := fun h =>
  match h.load m.vals with
  | .f64 _ => heapRawRectilinear64 B fma m.kind.method m.grids m.vals m.kind.lin obs out h
  | .f32 _ => heapRawRectilinear32 B fma m.kind.method m.grids m.vals m.kind.lin obs out h
  | .other _ => (.error .typeError, h)

theorem RegularRef.eval_eq (B : Borrow) (np : Numpy F32 F64 X) (fma : Bool) (m : RegularRef)
    (obs : List Ref) (out : Option Ref) {h h1 : Heap F32 F64 X} {o : Ref}
    (ho : heapOut np obs out h = (.ok o, h1)) :
    m.eval B np fma obs out h = ((m.call B fma obs o h1).1.map fun _ => o, (m.call B fma obs o h1).2) := by
  unfold RegularRef.eval
  rw [pyM_bind_ok ho]
  unfold RegularRef.evalUnchecked RegularRef.call
  simp only [pyM_bind, PyM.read, heapOut, pyM_pure]
  cases h1.load m.vals with
  | other a => rfl
  | f64 a =>
    simp only [pyM_bind, PyM.ofExcept]
    cases pyEach pyUsize m.dims with
    | error e => rfl
    | ok dims =>
      dsimp only
      generalize heapRawRegular64 B fma m.kind.method dims m.starts m.steps m.vals m.kind.lin obs o h1 = R
      obtain ⟨r, h2⟩ := R
      cases r <;> rfl
  | f32 a =>
    simp only [pyM_bind, PyM.ofExcept]
    cases pyEach pyUsize m.dims with
    | error e => rfl
    | ok dims =>
      dsimp only
      generalize heapRawRegular32 B fma m.kind.method dims m.starts m.steps m.vals m.kind.lin obs o h1 = R
      obtain ⟨r, h2⟩ := R
      cases r <;> rfl

theorem RectilinearRef.eval_eq (B : Borrow) (np : Numpy F32 F64 X) (fma : Bool) (m : RectilinearRef)
    (obs : List Ref) (out : Option Ref) {h h1 : Heap F32 F64 X} {o : Ref}
    (ho : heapOut np obs out h = (.ok o, h1)) :
    m.eval B np fma obs out h = ((m.call B fma obs o h1).1.map fun _ => o, (m.call B fma obs o h1).2) := by
  unfold RectilinearRef.eval
  rw [pyM_bind_ok ho]
  unfold RectilinearRef.evalUnchecked RectilinearRef.call
  simp only [pyM_bind, PyM.read, heapOut, pyM_pure]
  cases h1.load m.vals with
  | other a => rfl
  | f64 a =>
    simp only [pyM_bind]
    generalize heapRawRectilinear64 B fma m.kind.method m.grids m.vals m.kind.lin obs o h1 = R
    obtain ⟨r, h2⟩ := R
    cases r <;> rfl
  | f32 a =>
    simp only [pyM_bind]
    generalize heapRawRectilinear32 B fma m.kind.method m.grids m.vals m.kind.lin obs o h1 = R
    obtain ⟨r, h2⟩ := R
    cases r <;> rfl

/-- Either nothing is written and an exception is raised, or the borrow check has been passed and only
elements of `out` are written. -/
theorem RegularRef.call_frame (B : Borrow) (fma : Bool) (m : RegularRef) (obs : List Ref) (out : Ref)
    (h : Heap F32 F64 X) (hw : (h.load out).WellFormed) :
    (∃ e, m.call B fma obs out h = (.error e, h)) ∨
    B.allowed (m.starts :: m.steps :: m.vals :: obs) out = true ∧
      Heap.SameExcept [out] h (m.call B fma obs out h).2 := by
  unfold RegularRef.call
  cases h.load m.vals with
  | other a => exact .inl ⟨_, rfl⟩
  | f64 a =>
    cases pyEach pyUsize m.dims with
    | error e => exact .inl ⟨_, rfl⟩
    | ok dims => exact rawRegular64_frame B fma _ dims h _ _ _ _ obs out hw
  | f32 a =>
    cases pyEach pyUsize m.dims with
    | error e => exact .inl ⟨_, rfl⟩
    | ok dims => exact rawRegular32_frame B fma _ dims h _ _ _ _ obs out hw

theorem RectilinearRef.call_frame (B : Borrow) (fma : Bool) (m : RectilinearRef) (obs : List Ref)
    (out : Ref) (h : Heap F32 F64 X) (hw : (h.load out).WellFormed) :
    (∃ e, m.call B fma obs out h = (.error e, h)) ∨
    B.allowed (m.grids ++ m.vals :: obs) out = true ∧
      Heap.SameExcept [out] h (m.call B fma obs out h).2 := by
  unfold RectilinearRef.call
  cases h.load m.vals with
  | other a => exact .inl ⟨_, rfl⟩
  | f64 a => exact rawRectilinear64_frame B fma _ h _ _ _ obs out hw
  | f32 a => exact rawRectilinear32_frame B fma _ h _ _ _ obs out hw

/-! #### Refinement of the model without shared memory -/

theorem memArray_good_of_contiguous {a : MemArray F32 F64 X} (h : a.WellFormed) (hc : a.Contiguous1) :
    a.Good := by
  cases a with
  | f32 a => exact ⟨h, (a.contiguous1_iff h.1).1 hc⟩
  | f64 a => exact ⟨h, (a.contiguous1_iff h.1).1 hc⟩
  | other a => exact ⟨h, (a.contiguous1_iff h.1).1 hc⟩

/-- A field of float64 or of float32. -/
theorem Ref.Field.cases {r : Ref} {h : Heap F32 F64 X} (hr : r.Field h) :
    (∃ a, h.load r = .f64 a ∧ a.Good ∧ h.arr r = .f64 a.contents) ∨
    (∃ a, h.load r = .f32 a ∧ a.Good ∧ h.arr r = .f32 a.contents) := by
  have hg := memArray_good_of_contiguous hr.1.2 hr.2.1
  have hno := hr.2.2
  unfold Heap.arr
  cases hl : h.load r with
  | f64 a => rw [hl] at hg; exact .inl ⟨a, rfl, hg, rfl⟩
  | f32 a => rw [hl] at hg; exact .inr ⟨a, rfl, hg, rfl⟩
  | other a => exact (hno a hl).elim

theorem Ref.Field.extract64 {r : Ref} {h : Heap F32 F64 X} (hr : r.Field h) :
    (∃ a : Strided F64, (h.load r).extract64 = .ok a ∧ a.Good ∧ (h.arr r).asF64 = .ok a.contents) ∨
    ((h.load r).extract64 = .error .typeError ∧ (h.arr r).asF64 = .error .typeError) := by
  rcases hr.cases with ⟨a, e, g, c⟩ | ⟨a, e, g, c⟩
  · refine .inl ⟨a, ?_, g, by rw [c]; rfl⟩
    rw [e]
    simp only [MemArray.extract64, g.2.1]
    rfl
  · exact .inr ⟨by rw [e]; rfl, by rw [c]; rfl⟩

theorem Ref.Field.extract32 {r : Ref} {h : Heap F32 F64 X} (hr : r.Field h) :
    (∃ a : Strided F32, (h.load r).extract32 = .ok a ∧ a.Good ∧ (h.arr r).asF32 = .ok a.contents) ∨
    ((h.load r).extract32 = .error .typeError ∧ (h.arr r).asF32 = .error .typeError) := by
  rcases hr.cases with ⟨a, e, g, c⟩ | ⟨a, e, g, c⟩
  · exact .inr ⟨by rw [e]; rfl, by rw [c]; rfl⟩
  · refine .inl ⟨a, ?_, g, by rw [c]; rfl⟩
    rw [e]
    simp only [MemArray.extract32, g.2.1]
    rfl

theorem load_set64 {h : Heap F32 F64 X} {out : Ref} {o : Strided F64} (e : h.load out = .f64 o)
    (r : List F64) : Heap.load (h.set out.buf (.f64 (o.write r).buffer)) out = .f64 (o.write r) := by
  obtain ⟨e1, e2⟩ := positions_f64 e
  have hb : out.buf < h.length := (List.getElem?_eq_some_iff.1 e1).1
  unfold Heap.load
  rw [List.getElem?_set_self hb]
  simp only
  congr 1
  rw [e2]
  rfl

theorem load_set32 {h : Heap F32 F64 X} {out : Ref} {o : Strided F32} (e : h.load out = .f32 o)
    (r : List F32) : Heap.load (h.set out.buf (.f32 (o.write r).buffer)) out = .f32 (o.write r) := by
  obtain ⟨e1, e2⟩ := positions_f32 e
  have hb : out.buf < h.length := (List.getElem?_eq_some_iff.1 e1).1
  unfold Heap.load
  rw [List.getElem?_set_self hb]
  simp only
  congr 1
  rw [e2]
  rfl

theorem pyOfRes_map {α β : Type} (q : Res Unit × α) (f : α → β) :
    (pyOfRes (q.1, ())).map (fun _ => f q.2) = (pyOfRes q).map f := by
  unfold pyOfRes
  cases q.1 <;> rfl

theorem rawRegular64_refines (B : Borrow) (fma : Bool) (method : String) (dims : List Nat)
    (h : Heap F32 F64 X) (starts steps vals : Ref) (lin : Bool) (obs : List Ref) (out : Ref)
    {s p v v' : Strided F64} (hs : (h.load starts).extract64 = .ok s) (gs : s.Good)
    (hp : (h.load steps).extract64 = .ok p) (gp : p.Good) (hv : (h.load vals).extract64 = .ok v)
    (gv : v.Good) (gv' : v'.Good) (ev : v'.contents = v.contents)
    (hall : B.allowed (starts :: steps :: vals :: obs) out = true) :
    (heapRawRegular64 B fma method dims starts steps vals lin obs out h).1.map
        (fun _ => Heap.load (heapRawRegular64 B fma method dims starts steps vals lin obs out h).2 out) =
      (do
        let obs ← pyEach MemArray.extract64 (obs.map h.load)
        let o ← (h.load out).extract64
        let r ← memRawRegular fma method dims s.contents p.contents v' lin obs o
        return .f64 r) := by
  rw [rawRegular64_eq]
  unfold planRegular64 memRawRegular
  rw [hs, hp, hv, gv'.asSlice, ev]
  simp only [ok_bind', hall, if_true, gs.asSlice, gp.asSlice, gv.asSlice]
  cases pyEach MemArray.extract64 (obs.map h.load) with
  | error e => rfl
  | ok xs =>
  cases ho : (h.load out).extract64 with
  | error e => rfl
  | ok o =>
  simp only [ok_bind']
  cases hx : unpackFrom 0 xs with
  | error e => rfl
  | ok x =>
  simp only [ok_bind']
  cases hr : o.asSlice with
  | error e => rfl
  | ok r =>
  simp only [ok_bind']
  rw [rawRegular_rust _ _ _ _ _ _ _ _ _ (unpackFrom_ok hx)]
  generalize rustRegular fma method dims s.contents p.contents v.contents lin x r = q
  change Except.map (fun _ => Heap.load (h.set out.buf (.f64 (o.write q.2).buffer)) out)
    (pyOfRes (q.1, ())) = _
  rw [load_set64 (extract64_ok ho).1, pyOfRes_map q fun r => MemArray.f64 (o.write r)]
  generalize pyOfRes _ = R
  cases R <;> rfl

theorem rawRectilinear64_refines (B : Borrow) (fma : Bool) (method : String)
    (h : Heap F32 F64 X) (grids : List Ref) (vals : Ref) (lin : Bool) (obs : List Ref) (out : Ref)
    {gs gs' : List (Strided F64)} {v v' : Strided F64}
    (hg : pyEach MemArray.extract64 (grids.map h.load) = .ok gs) (gg : ∀ a ∈ gs, a.Good)
    (gg' : ∀ a ∈ gs', a.Good) (eg : gs'.map Strided.contents = gs.map Strided.contents)
    (hv : (h.load vals).extract64 = .ok v) (gv : v.Good) (gv' : v'.Good)
    (ev : v'.contents = v.contents) (hall : B.allowed (grids ++ vals :: obs) out = true) :
    (heapRawRectilinear64 B fma method grids vals lin obs out h).1.map
        (fun _ => Heap.load (heapRawRectilinear64 B fma method grids vals lin obs out h).2 out) =
      (do
        let obs ← pyEach MemArray.extract64 (obs.map h.load)
        let o ← (h.load out).extract64
        let r ← memRawRectilinear fma method gs' v' lin obs o
        return .f64 r) := by
  rw [rawRectilinear64_eq]
  unfold planRectilinear64 memRawRectilinear
  rw [hg, hv, gv'.asSlice, ev]
  have e2 : unpackFrom 0 gs' = unpackFrom 0 gs := by
    rw [unpackFrom_zero gs gg, unpackFrom_zero gs' gg', eg]
    have : gs'.length = gs.length := by simpa using congrArg List.length eg
    simp [unpackOk, this]
  rw [e2]
  simp only [ok_bind', hall, if_true, gv.asSlice]
  cases pyEach MemArray.extract64 (obs.map h.load) with
  | error e => rfl
  | ok xs =>
  cases ho : (h.load out).extract64 with
  | error e => rfl
  | ok o =>
  simp only [ok_bind']
  cases hg : unpackFrom 0 gs with
  | error e => rfl
  | ok g =>
  simp only [ok_bind']
  cases hx : unpackFrom 0 xs with
  | error e => rfl
  | ok x =>
  simp only [ok_bind']
  cases hr : o.asSlice with
  | error e => rfl
  | ok r =>
  simp only [ok_bind']
  rw [rawRectilinear_rust _ _ _ _ _ _ _ (unpackFrom_ok hx) (unpackFrom_ok hg)]
  generalize rustRectilinear fma method g v.contents lin x r = q
  change Except.map (fun _ => Heap.load (h.set out.buf (.f64 (o.write q.2).buffer)) out)
    (pyOfRes (q.1, ())) = _
  rw [load_set64 (extract64_ok ho).1, pyOfRes_map q fun r => MemArray.f64 (o.write r)]
  generalize pyOfRes _ = R
  cases R <;> rfl

theorem rawRegular32_refines (B : Borrow) (fma : Bool) (method : String) (dims : List Nat)
    (h : Heap F32 F64 X) (starts steps vals : Ref) (lin : Bool) (obs : List Ref) (out : Ref)
    {s p v v' : Strided F32} (hs : (h.load starts).extract32 = .ok s) (gs : s.Good)
    (hp : (h.load steps).extract32 = .ok p) (gp : p.Good) (hv : (h.load vals).extract32 = .ok v)
    (gv : v.Good) (gv' : v'.Good) (ev : v'.contents = v.contents)
    (hall : B.allowed (starts :: steps :: vals :: obs) out = true) :
    (heapRawRegular32 B fma method dims starts steps vals lin obs out h).1.map
        (fun _ => Heap.load (heapRawRegular32 B fma method dims starts steps vals lin obs out h).2 out) =
      (do
        let obs ← pyEach MemArray.extract32 (obs.map h.load)
        let o ← (h.load out).extract32
        let r ← memRawRegular fma method dims s.contents p.contents v' lin obs o
        return .f32 r) := by
  rw [rawRegular32_eq]
  unfold planRegular32 memRawRegular
  rw [hs, hp, hv, gv'.asSlice, ev]
  simp only [ok_bind', hall, if_true, gs.asSlice, gp.asSlice, gv.asSlice]
  cases pyEach MemArray.extract32 (obs.map h.load) with
  | error e => rfl
  | ok xs =>
  cases ho : (h.load out).extract32 with
  | error e => rfl
  | ok o =>
  simp only [ok_bind']
  cases hx : unpackFrom 0 xs with
  | error e => rfl
  | ok x =>
  simp only [ok_bind']
  cases hr : o.asSlice with
  | error e => rfl
  | ok r =>
  simp only [ok_bind']
  rw [rawRegular_rust _ _ _ _ _ _ _ _ _ (unpackFrom_ok hx)]
  generalize rustRegular fma method dims s.contents p.contents v.contents lin x r = q
  change Except.map (fun _ => Heap.load (h.set out.buf (.f32 (o.write q.2).buffer)) out)
    (pyOfRes (q.1, ())) = _
  rw [load_set32 (extract32_ok ho).1, pyOfRes_map q fun r => MemArray.f32 (o.write r)]
  generalize pyOfRes _ = R
  cases R <;> rfl

theorem rawRectilinear32_refines (B : Borrow) (fma : Bool) (method : String)
    (h : Heap F32 F64 X) (grids : List Ref) (vals : Ref) (lin : Bool) (obs : List Ref) (out : Ref)
    {gs gs' : List (Strided F32)} {v v' : Strided F32}
    (hg : pyEach MemArray.extract32 (grids.map h.load) = .ok gs) (gg : ∀ a ∈ gs, a.Good)
    (gg' : ∀ a ∈ gs', a.Good) (eg : gs'.map Strided.contents = gs.map Strided.contents)
    (hv : (h.load vals).extract32 = .ok v) (gv : v.Good) (gv' : v'.Good)
    (ev : v'.contents = v.contents) (hall : B.allowed (grids ++ vals :: obs) out = true) :
    (heapRawRectilinear32 B fma method grids vals lin obs out h).1.map
        (fun _ => Heap.load (heapRawRectilinear32 B fma method grids vals lin obs out h).2 out) =
      (do
        let obs ← pyEach MemArray.extract32 (obs.map h.load)
        let o ← (h.load out).extract32
        let r ← memRawRectilinear fma method gs' v' lin obs o
        return .f32 r) := by
  rw [rawRectilinear32_eq]
  unfold planRectilinear32 memRawRectilinear
  rw [hg, hv, gv'.asSlice, ev]
  have e2 : unpackFrom 0 gs' = unpackFrom 0 gs := by
    rw [unpackFrom_zero gs gg, unpackFrom_zero gs' gg', eg]
    have : gs'.length = gs.length := by simpa using congrArg List.length eg
    simp [unpackOk, this]
  rw [e2]
  simp only [ok_bind', hall, if_true, gv.asSlice]
  cases pyEach MemArray.extract32 (obs.map h.load) with
  | error e => rfl
  | ok xs =>
  cases ho : (h.load out).extract32 with
  | error e => rfl
  | ok o =>
  simp only [ok_bind']
  cases hg : unpackFrom 0 gs with
  | error e => rfl
  | ok g =>
  simp only [ok_bind']
  cases hx : unpackFrom 0 xs with
  | error e => rfl
  | ok x =>
  simp only [ok_bind']
  cases hr : o.asSlice with
  | error e => rfl
  | ok r =>
  simp only [ok_bind']
  rw [rawRectilinear_rust _ _ _ _ _ _ _ (unpackFrom_ok hx) (unpackFrom_ok hg)]
  generalize rustRectilinear fma method g v.contents lin x r = q
  change Except.map (fun _ => Heap.load (h.set out.buf (.f32 (o.write q.2).buffer)) out)
    (pyOfRes (q.1, ())) = _
  rw [load_set32 (extract32_ok ho).1, pyOfRes_map q fun r => MemArray.f32 (o.write r)]
  generalize pyOfRes _ = R
  cases R <;> rfl

/-- The call of the raw routine computes what the model without shared memory computes. -/
theorem RegularRef.call_refines (B : Borrow) (np : Numpy F32 F64 X) (fma : Bool) (m : RegularRef)
    (obs : List Ref) (out : Ref) (h : Heap F32 F64 X) (hm : m.Sound h)
    (hall : B.allowed (m.starts :: m.steps :: m.vals :: obs) out = true)
    {outM : Option (MemArray F32 F64 X)} (hmem : memOut np (obs.map h.load) outM = .ok (h.load out)) :
    (m.call B fma obs out h).1.map (fun _ => Heap.load (m.call B fma obs out h).2 out) =
      (m.load h).evalMem np fma (obs.map h.load) outM := by
  rcases hm.2.2.cases with ⟨v, ev, gv, cv⟩ | ⟨v, ev, gv, cv⟩
  · unfold RegularRef.call RegularObj.evalMem
    rw [hmem, ok_bind']
    simp only [ev, RegularRef.load, cv]
    cases pyEach pyUsize m.dims with
    | error e => rfl
    | ok dims =>
    simp only [ok_bind']
    have hvx : (h.load m.vals).extract64 = .ok v := by
      rw [ev]
      simp only [MemArray.extract64, gv.2.1]
      rfl
    rcases hm.1.extract64 with ⟨s, es, gs, cs⟩ | ⟨es, cs⟩
    · rcases hm.2.1.extract64 with ⟨p, ep, gp, cp⟩ | ⟨ep, cp⟩
      · obtain ⟨gv', cv'⟩ := Strided.good_ownArray v.contents
        rw [rawRegular64_refines B fma _ dims h _ _ _ _ obs out es gs ep gp hvx gv gv' cv' hall, cs, cp]
        rfl
      · rw [rawRegular64_eq, cs, cp]
        unfold planRegular64
        rw [es, ep]
        rfl
    · rw [rawRegular64_eq, cs]
      unfold planRegular64
      rw [es]
      rfl
  · unfold RegularRef.call RegularObj.evalMem
    rw [hmem, ok_bind']
    simp only [ev, RegularRef.load, cv]
    cases pyEach pyUsize m.dims with
    | error e => rfl
    | ok dims =>
    simp only [ok_bind']
    have hvx : (h.load m.vals).extract32 = .ok v := by
      rw [ev]
      simp only [MemArray.extract32, gv.2.1]
      rfl
    rcases hm.1.extract32 with ⟨s, es, gs, cs⟩ | ⟨es, cs⟩
    · rcases hm.2.1.extract32 with ⟨p, ep, gp, cp⟩ | ⟨ep, cp⟩
      · obtain ⟨gv', cv'⟩ := Strided.good_ownArray v.contents
        rw [rawRegular32_refines B fma _ dims h _ _ _ _ obs out es gs ep gp hvx gv gv' cv' hall, cs, cp]
        rfl
      · rw [rawRegular32_eq, cs, cp]
        unfold planRegular32
        rw [es, ep]
        rfl
    · rw [rawRegular32_eq, cs]
      unfold planRegular32
      rw [es]
      rfl

theorem fields_extract64 (h : Heap F32 F64 X) : ∀ (l : List Ref), (∀ r ∈ l, r.Field h) →
    (∃ gs : List (Strided F64), pyEach MemArray.extract64 (l.map h.load) = .ok gs ∧
      (∀ a ∈ gs, a.Good) ∧ pyEach Arr.asF64 (l.map h.arr) = .ok (gs.map Strided.contents)) ∨
    (pyEach MemArray.extract64 (l.map h.load) = .error .typeError ∧
      pyEach Arr.asF64 (l.map h.arr) = .error .typeError)
  | [], _ => .inl ⟨[], rfl, by simp, rfl⟩
  | r :: l, hl => by
    simp only [List.map_cons]
    unfold pyEach
    rcases (hl r (by simp)).extract64 with ⟨a, ea, ga, ca⟩ | ⟨ea, ca⟩
    · rw [ea, ca]
      rcases fields_extract64 h l fun r' hr' => hl r' (by simp [hr']) with ⟨gs, eg, gg, cg⟩ | ⟨eg, cg⟩
      · refine .inl ⟨a :: gs, by rw [eg]; rfl, ?_, by rw [cg]; rfl⟩
        intro b hb
        rcases List.mem_cons.1 hb with rfl | hb
        · exact ga
        · exact gg b hb
      · exact .inr ⟨by rw [eg]; rfl, by rw [cg]; rfl⟩
    · exact .inr ⟨by rw [ea]; rfl, by rw [ca]; rfl⟩

theorem fields_extract32 (h : Heap F32 F64 X) : ∀ (l : List Ref), (∀ r ∈ l, r.Field h) →
    (∃ gs : List (Strided F32), pyEach MemArray.extract32 (l.map h.load) = .ok gs ∧
      (∀ a ∈ gs, a.Good) ∧ pyEach Arr.asF32 (l.map h.arr) = .ok (gs.map Strided.contents)) ∨
    (pyEach MemArray.extract32 (l.map h.load) = .error .typeError ∧
      pyEach Arr.asF32 (l.map h.arr) = .error .typeError)
  | [], _ => .inl ⟨[], rfl, by simp, rfl⟩
  | r :: l, hl => by
    simp only [List.map_cons]
    unfold pyEach
    rcases (hl r (by simp)).extract32 with ⟨a, ea, ga, ca⟩ | ⟨ea, ca⟩
    · rw [ea, ca]
      rcases fields_extract32 h l fun r' hr' => hl r' (by simp [hr']) with ⟨gs, eg, gg, cg⟩ | ⟨eg, cg⟩
      · refine .inl ⟨a :: gs, by rw [eg]; rfl, ?_, by rw [cg]; rfl⟩
        intro b hb
        rcases List.mem_cons.1 hb with rfl | hb
        · exact ga
        · exact gg b hb
      · exact .inr ⟨by rw [eg]; rfl, by rw [cg]; rfl⟩
    · exact .inr ⟨by rw [ea]; rfl, by rw [ca]; rfl⟩

/-- The call of the raw routine computes what the model without shared memory computes. -/
theorem RectilinearRef.call_refines (B : Borrow) (np : Numpy F32 F64 X) (fma : Bool)
    (m : RectilinearRef) (obs : List Ref) (out : Ref) (h : Heap F32 F64 X) (hm : m.Sound h)
    (hall : B.allowed (m.grids ++ m.vals :: obs) out = true)
    {outM : Option (MemArray F32 F64 X)} (hmem : memOut np (obs.map h.load) outM = .ok (h.load out)) :
    (m.call B fma obs out h).1.map (fun _ => Heap.load (m.call B fma obs out h).2 out) =
      (m.load h).evalMem np fma (obs.map h.load) outM := by
  rcases hm.2.cases with ⟨v, ev, gv, cv⟩ | ⟨v, ev, gv, cv⟩
  · unfold RectilinearRef.call RectilinearObj.evalMem
    rw [hmem, ok_bind']
    simp only [ev, RectilinearRef.load, cv]
    have hvx : (h.load m.vals).extract64 = .ok v := by
      rw [ev]
      simp only [MemArray.extract64, gv.2.1]
      rfl
    rcases fields_extract64 h m.grids hm.1 with ⟨gs, eg, gg, cg⟩ | ⟨eg, cg⟩
    · obtain ⟨gv', cv'⟩ := Strided.good_ownArray v.contents
      rw [cg]
      rw [rawRectilinear64_refines B fma _ h _ _ _ obs out eg gg
        (gs' := (gs.map Strided.contents).map ownArray) ?_ ?_ hvx gv gv' cv' hall]
      · rfl
      · intro a ha
        obtain ⟨d, -, rfl⟩ := List.mem_map.1 ha
        exact (Strided.good_ownArray d).1
      · rw [List.map_map, List.map_map]
        apply List.map_congr_left
        intro d _
        exact (Strided.good_ownArray d.contents).2
    · rw [rawRectilinear64_eq, cg]
      unfold planRectilinear64
      rw [eg]
      rfl
  · unfold RectilinearRef.call RectilinearObj.evalMem
    rw [hmem, ok_bind']
    simp only [ev, RectilinearRef.load, cv]
    have hvx : (h.load m.vals).extract32 = .ok v := by
      rw [ev]
      simp only [MemArray.extract32, gv.2.1]
      rfl
    rcases fields_extract32 h m.grids hm.1 with ⟨gs, eg, gg, cg⟩ | ⟨eg, cg⟩
    · obtain ⟨gv', cv'⟩ := Strided.good_ownArray v.contents
      rw [cg]
      rw [rawRectilinear32_refines B fma _ h _ _ _ obs out eg gg
        (gs' := (gs.map Strided.contents).map ownArray) ?_ ?_ hvx gv gv' cv' hall]
      · rfl
      · intro a ha
        obtain ⟨d, -, rfl⟩ := List.mem_map.1 ha
        exact (Strided.good_ownArray d).1
      · rw [List.map_map, List.map_map]
        apply List.map_congr_left
        intro d _
        exact (Strided.good_ownArray d.contents).2
    · rw [rawRectilinear32_eq, cg]
      unfold planRectilinear32
      rw [eg]
      rfl

end Interpn
