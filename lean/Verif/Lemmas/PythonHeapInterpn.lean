import Verif.Lemmas.PythonHeapEval

/-! The function `interpn` on shared memory. -/

set_option autoImplicit false

namespace Interpn
open FloatOps

variable {F32 F64 X : Type} [FloatOps F32] [FloatOps F64]

/-- The output array of `interpn`: `out`, or an array in a new buffer. -/
theorem heapOutOr_spec (np : Numpy F32 F64 X) (nx : NumpyX X) (obs : List Ref) (out : Option Ref)
    (h : Heap F32 F64 X) (ho : ∀ o ∈ out, o.In h) :
    (∃ e, heapOutOr np nx out obs h = (.error e, h) ∧
      memOutOr np nx (out.map h.load) (obs.map h.load) = .error e) ∨
    ∃ o h1, heapOutOr np nx out obs h = (.ok o, h1) ∧ h <+: h1 ∧ o.In h1 ∧
      memOutOr np nx (out.map h.load) (obs.map h.load) = .ok (h1.load o) ∧
      ((out = some o ∧ h1 = h ∧ (h.load o).contents.truth np nx = .ok true) ∨
        (o.buf = h.length ∧ o.writeable = true ∧
          ∀ o' ∈ out, (h.load o').contents.truth np nx = .ok false)) := by
  have fresh : ∀ oM, (∀ rest : List Ref, memOutOr np nx oM (rest.map h.load) =
        match rest.map h.load with
        | [] => .error .indexError
        | a :: _ => .ok (a.zerosLike np)) →
      (∃ e, heapZerosFirst np obs h = (.error e, h) ∧
        memOutOr np nx oM (obs.map h.load) = .error e) ∨
      ∃ o h1, heapZerosFirst np obs h = (.ok o, h1) ∧ h <+: h1 ∧ o.In h1 ∧
        memOutOr np nx oM (obs.map h.load) = .ok (h1.load o) ∧ o.buf = h.length ∧ o.writeable = true := by
    intro oM hM
    rcases zerosFirst_spec np obs h with ⟨rfl, e⟩ | ⟨r, rest, o, h1, rfl, e, p, b, l, wr, a, w⟩
    · exact .inl ⟨_, e, hM []⟩
    · refine .inr ⟨o, h1, e, p, ⟨by omega, w⟩, ?_, b, wr⟩
      rw [a, hM]
      rfl
  cases out with
  | none =>
    rcases fresh none (fun rest => rfl) with ⟨e, h1, h2⟩ | ⟨o, h1, e, p, i, hm, b, w⟩
    · exact .inl ⟨e, h1, h2⟩
    · exact .inr ⟨o, h1, e, p, i, hm, .inr ⟨b, w, fun o' ho' => by cases ho'⟩⟩
  | some r =>
    unfold heapOutOr
    simp only [Option.map_some]
    rw [pyM_read_bind, pyM_ofExcept_bind]
    cases ht : (h.load r).contents.truth np nx with
    | error e =>
      refine .inl ⟨e, rfl, ?_⟩
      unfold memOutOr
      simp only [ht]
      rfl
    | ok b =>
      cases b with
      | true =>
        refine .inr ⟨r, h, rfl, List.prefix_rfl, ho r rfl, ?_, .inl ⟨rfl, rfl, ht⟩⟩
        unfold memOutOr
        simp only [ht]
        rfl
      | false =>
        have hM : ∀ rest : List Ref, memOutOr np nx (some (h.load r)) (rest.map h.load) =
            match rest.map h.load with
            | [] => .error .indexError
            | a :: _ => .ok (a.zerosLike np) := by
          intro rest
          unfold memOutOr
          simp only [ht]
          rfl
        rcases fresh _ hM with ⟨e, h1, h2⟩ | ⟨o, h1, e, p, i, hm, b, w⟩
        · exact .inl ⟨e, h1, h2⟩
        · refine .inr ⟨o, h1, e, p, i, hm, .inr ⟨b, w, fun o' ho' => ?_⟩⟩
          cases ho'
          exact ht

/-! #### float64 -/

omit [FloatOps F32] in
theorem grows_checkBounds64 (regular : Bool) (dims : List Nat) (starts steps : List F64)
    (grids obs : List Ref) (atol : F64) :
    Grows (heapCheckBounds64 regular dims starts steps grids obs atol : PyM F32 F64 X Unit) :=
  (grows_each grows_read _).bind fun _ => (grows_each grows_read _).bind fun _ =>
    (grows_ofExcept _).bind fun _ => grows_ite _ (grows_ofExcept _) (grows_pure _)

omit [FloatOps F32] in
theorem checkBounds64_heap (regular : Bool) (dims : List Nat) (starts steps : List F64)
    (grids obs : List Ref) (atol : F64) (h : Heap F32 F64 X) :
    (heapCheckBounds64 regular dims starts steps grids obs atol h).2 = h := by
  unfold heapCheckBounds64
  rw [pyM_bind_ok (pyM_each_read grids h), pyM_bind_ok (pyM_each_read obs h), pyM_ofExcept_bind]
  split
  · split <;> rfl
  · rfl

theorem grows_prepare64 (np : Numpy F32 F64 X) (nx : NumpyX X) (obs grids : List Ref) (method : String)
    (assumeRegular checkB : Bool) (atol : F64) :
    Grows (heapPrepare64 np nx obs grids method assumeRegular checkB atol) :=
  (grows_each grows_read _).bind fun _ => (grows_ofExcept _).bind fun _ =>
    (grows_ofExcept _).bind fun _ => (grows_alloc _ _).bind fun _ => (grows_alloc _ _).bind fun _ =>
    grows_ite _
      ((grows_checkBounds64 _ _ _ _ _ _ _).bind fun _ => (grows_ofExcept _).bind fun _ => grows_pure _)
      ((grows_ofExcept _).bind fun _ => grows_pure _)

/-- Either an exception is raised and nothing is written, or the borrow check has been passed for `out`
and only elements of `out` are written. -/
theorem interpn64_frame (B : Borrow) (np : Numpy F32 F64 X) (nx : NumpyX X) (fma : Bool)
    (obs grids : List Ref) (vals : Ref) (method : String) (out : Ref)
    (lin assumeRegular checkB : Bool) (atol : F64) (h : Heap F32 F64 X) (hw : out.In h) :
    (∃ e h', heapInterpn64 B np nx fma obs grids vals method out lin assumeRegular checkB atol h =
      (.error e, h') ∧ h <+: h') ∨
    Heap.SameExcept [out] h
      (heapInterpn64 B np nx fma obs grids vals method out lin assumeRegular checkB atol h).2 ∧
      ∃ rs, B.allowed rs out = true ∧ vals ∈ rs ∧ ∀ r ∈ obs, r ∈ rs := by
  unfold heapInterpn64
  have hg := grows_prepare64 np nx obs grids method assumeRegular checkB atol h
  rw [pyM_bind]
  generalize heapPrepare64 np nx obs grids method assumeRegular checkB atol h = P at hg
  obtain ⟨r, h2⟩ := P
  cases r with
  | error e => exact .inl ⟨e, h2, rfl, hg⟩
  | ok r =>
    obtain ⟨call, regular, dims, starts, steps⟩ := r
    simp only
    have hw2 : (h2.load out).WellFormed := (hw.mono hg).2
    cases regular with
    | true =>
      simp only [if_true]
      rw [pyM_bind]
      rcases rawRegular64_frame B fma call.method dims h2 starts steps vals lin obs out hw2 with
        ⟨e, he⟩ | ⟨hall, hf⟩
      · rw [he]
        exact .inl ⟨e, h2, rfl, hg⟩
      · generalize heapRawRegular64 B fma call.method dims starts steps vals lin obs out h2 = R at hf
        obtain ⟨r, h3⟩ := R
        refine .inr ⟨?_, _, hall, by simp, fun r hr => by simp [hr]⟩
        have hs := (sameExcept_of_prefix (outs := [out]) hg).trans hf
        cases r <;> exact hs
    | false =>
      simp only [Bool.false_eq_true, if_false]
      rw [pyM_bind]
      rcases rawRectilinear64_frame B fma call.method h2 grids vals lin obs out hw2 with
        ⟨e, he⟩ | ⟨hall, hf⟩
      · rw [he]
        exact .inl ⟨e, h2, rfl, hg⟩
      · generalize heapRawRectilinear64 B fma call.method grids vals lin obs out h2 = R at hf
        obtain ⟨r, h3⟩ := R
        refine .inr ⟨?_, _, hall, by simp, fun r hr => by simp [hr]⟩
        have hs := (sameExcept_of_prefix (outs := [out]) hg).trans hf
        cases r <;> exact hs

/-! #### float32 -/

omit [FloatOps F64] in
theorem grows_checkBounds32 (np : Numpy F32 F64 X) (regular : Bool) (dims : List Nat) (starts steps : List F32)
    (grids obs : List Ref) (atol : F64) :
    Grows (heapCheckBounds32 np regular dims starts steps grids obs atol : PyM F32 F64 X Unit) :=
  (grows_each grows_read _).bind fun _ => (grows_each grows_read _).bind fun _ =>
    (grows_ofExcept _).bind fun _ => grows_ite _ (grows_ofExcept _) (grows_pure _)

omit [FloatOps F64] in
theorem checkBounds32_heap (np : Numpy F32 F64 X) (regular : Bool) (dims : List Nat) (starts steps : List F32)
    (grids obs : List Ref) (atol : F64) (h : Heap F32 F64 X) :
    (heapCheckBounds32 np regular dims starts steps grids obs atol h).2 = h := by
  unfold heapCheckBounds32
  rw [pyM_bind_ok (pyM_each_read grids h), pyM_bind_ok (pyM_each_read obs h), pyM_ofExcept_bind]
  split
  · split <;> rfl
  · rfl

theorem grows_prepare32 (np : Numpy F32 F64 X) (nx : NumpyX X) (obs grids : List Ref) (method : String)
    (assumeRegular checkB : Bool) (atol : F64) :
    Grows (heapPrepare32 np nx obs grids method assumeRegular checkB atol) :=
  (grows_each grows_read _).bind fun _ => (grows_ofExcept _).bind fun _ =>
    (grows_ofExcept _).bind fun _ => (grows_alloc _ _).bind fun _ => (grows_alloc _ _).bind fun _ =>
    grows_ite _
      ((grows_checkBounds32 _ _ _ _ _ _ _ _).bind fun _ => (grows_ofExcept _).bind fun _ => grows_pure _)
      ((grows_ofExcept _).bind fun _ => grows_pure _)

/-- Either an exception is raised and nothing is written, or the borrow check has been passed for `out`
and only elements of `out` are written. -/
theorem interpn32_frame (B : Borrow) (np : Numpy F32 F64 X) (nx : NumpyX X) (fma : Bool)
    (obs grids : List Ref) (vals : Ref) (method : String) (out : Ref)
    (lin assumeRegular checkB : Bool) (atol : F64) (h : Heap F32 F64 X) (hw : out.In h) :
    (∃ e h', heapInterpn32 B np nx fma obs grids vals method out lin assumeRegular checkB atol h =
      (.error e, h') ∧ h <+: h') ∨
    Heap.SameExcept [out] h
      (heapInterpn32 B np nx fma obs grids vals method out lin assumeRegular checkB atol h).2 ∧
      ∃ rs, B.allowed rs out = true ∧ vals ∈ rs ∧ ∀ r ∈ obs, r ∈ rs := by
  unfold heapInterpn32
  have hg := grows_prepare32 np nx obs grids method assumeRegular checkB atol h
  rw [pyM_bind]
  generalize heapPrepare32 np nx obs grids method assumeRegular checkB atol h = P at hg
  obtain ⟨r, h2⟩ := P
  cases r with
  | error e => exact .inl ⟨e, h2, rfl, hg⟩
  | ok r =>
    obtain ⟨call, regular, dims, starts, steps⟩ := r
    simp only
    have hw2 : (h2.load out).WellFormed := (hw.mono hg).2
    cases regular with
    | true =>
      simp only [if_true]
      rw [pyM_bind]
      rcases rawRegular32_frame B fma call.method dims h2 starts steps vals lin obs out hw2 with
        ⟨e, he⟩ | ⟨hall, hf⟩
      · rw [he]
        exact .inl ⟨e, h2, rfl, hg⟩
      · generalize heapRawRegular32 B fma call.method dims starts steps vals lin obs out h2 = R at hf
        obtain ⟨r, h3⟩ := R
        refine .inr ⟨?_, _, hall, by simp, fun r hr => by simp [hr]⟩
        have hs := (sameExcept_of_prefix (outs := [out]) hg).trans hf
        cases r <;> exact hs
    | false =>
      simp only [Bool.false_eq_true, if_false]
      rw [pyM_bind]
      rcases rawRectilinear32_frame B fma call.method h2 grids vals lin obs out hw2 with
        ⟨e, he⟩ | ⟨hall, hf⟩
      · rw [he]
        exact .inl ⟨e, h2, rfl, hg⟩
      · generalize heapRawRectilinear32 B fma call.method grids vals lin obs out h2 = R at hf
        obtain ⟨r, h3⟩ := R
        refine .inr ⟨?_, _, hall, by simp, fun r hr => by simp [hr]⟩
        have hs := (sameExcept_of_prefix (outs := [out]) hg).trans hf
        cases r <;> exact hs

/-! #### Refinement of the model without shared memory -/

theorem loads_of_prefix {h h' : Heap F32 F64 X} (p : h <+: h') {l : List Ref}
    (hl : ∀ r ∈ l, r.buf < h.length) : l.map h'.load = l.map h.load :=
  List.map_congr_left fun r hr => load_of_prefix p (hl r hr)

/-- `memInterpn64` as a sequence of stages. -/
theorem memInterpn64_eq (np : Numpy F32 F64 X) (nx : NumpyX X) (fma : Bool)
    (obs grids : List (MemArray F32 F64 X)) (vals : Strided F64) (method : String)
    (out : MemArray F32 F64 X) (lin assumeRegular checkB : Bool) (atol : F64) :
    memInterpn64 np nx fma obs grids vals method out lin assumeRegular checkB atol =
      ((if assumeRegular then pure true else npCheckRegular nx true (grids.map MemArray.contents) :
          Except PyExc Bool) >>= fun regular =>
        (if regular then pyEach (NpArray.startStep64 np nx) (grids.map MemArray.contents) else pure [] :
          Except PyExc (List (F64 × F64))) >>= fun params =>
        (if checkB then
          (if regular then do
            let obs ← pyEach MemArray.extract64 obs
            let obs ← unpackFrom 0 obs
            pyOfRes (checkBoundsRegular
              (if regular then (grids.map MemArray.contents).map NpArray.size else [])
              (params.map Prod.fst) (params.map Prod.snd) obs atol [false])
          else do
            let grids ← pyEach MemArray.extract64 grids
            let obs ← pyEach MemArray.extract64 obs
            let grids ← unpackFrom 0 grids
            let obs ← unpackFrom 0 obs
            pyOfRes (checkBoundsRectilinear grids obs atol [false]) : Except PyExc (List Bool)) >>=
          fun flags =>
            if flags.any id then .error (.valueError "Observation points violate interpolator bounds")
            else pure ()
        else pure () : Except PyExc Unit) >>= fun _ =>
        pyDispatch .float64 regular method >>= fun call =>
        (if regular then do
          let obs ← pyEach MemArray.extract64 obs
          let out ← out.extract64
          memRawRegular fma call.method
            (if regular then (grids.map MemArray.contents).map NpArray.size else [])
            (params.map Prod.fst) (params.map Prod.snd) vals lin obs out
        else do
          let grids ← pyEach MemArray.extract64 grids
          let obs ← pyEach MemArray.extract64 obs
          let out ← out.extract64
          memRawRectilinear fma call.method grids vals lin obs out : Except PyExc (Strided F64)) >>=
        fun r => pure (call, r)) := by
  have hb : ∀ {α β : Type} (c : Prop) [Decidable c] (a b : Except PyExc α) (f : α → Except PyExc β),
      (if c then a else b) >>= f = if c then a >>= f else b >>= f := by
    intro α β c _ a b f
    split <;> rfl
  unfold memInterpn64
  simp only [hb, bind_assoc, pure_bind]

theorem checkBounds64_eq (regular : Bool) (dims : List Nat) (starts steps : List F64)
    (grids obs : List Ref) (atol : F64) (h : Heap F32 F64 X) :
    heapCheckBounds64 regular dims starts steps grids obs atol h =
      (((if regular then do
            let obs ← pyEach MemArray.extract64 (obs.map h.load)
            let obs ← unpackFrom 0 obs
            pyOfRes (checkBoundsRegular dims starts steps obs atol [false])
          else do
            let grids ← pyEach MemArray.extract64 (grids.map h.load)
            let obs ← pyEach MemArray.extract64 (obs.map h.load)
            let grids ← unpackFrom 0 grids
            let obs ← unpackFrom 0 obs
            pyOfRes (checkBoundsRectilinear grids obs atol [false]) : Except PyExc (List Bool)) >>=
        fun flags =>
          if flags.any id then .error (.valueError "Observation points violate interpolator bounds")
          else pure () : Except PyExc Unit), h) := by
  unfold heapCheckBounds64
  rw [pyM_bind_ok (pyM_each_read grids h), pyM_bind_ok (pyM_each_read obs h), pyM_ofExcept_bind]
  generalize (if regular then _ else _ : Except PyExc (List Bool)) = C
  cases C with
  | error e => rfl
  | ok flags =>
    simp only [ok_bind']
    cases flags.any id <;> rfl

theorem owned64_field (h : Heap F32 F64 X) (d : List F64) (n : Nat) (hn : d.length = n)
    (t : Heap F32 F64 X) (p : (h ++ [.f64 d]) <+: t) :
    ∃ a : Strided F64, (Heap.load t ⟨h.length, 0, [n], Strided.cStrides [n], true⟩).extract64 = .ok a ∧
      a.Good ∧ a.contents = d := by
  rw [load_alloc h (.f64 d) [n] t p]
  obtain ⟨c, wf, k, sh⟩ := owned_contents (F32 := F32) (F64 := F64) (X := X) (.f64 d) [n]
    (by simpa [NpArray.size] using hn)
  refine ⟨⟨d, 0, [n], Strided.cStrides [n]⟩, rfl, ⟨wf, rfl, k⟩, ?_⟩
  exact NpArray.f64.inj c

/-- What `interpn` has done before it calls the raw routine. -/
theorem prepare64_spec (np : Numpy F32 F64 X) (nx : NumpyX X) (fma : Bool) (obs grids : List Ref)
    (method : String) (lin assumeRegular checkB : Bool) (atol : F64) (h : Heap F32 F64 X)
    (hobs : ∀ r ∈ obs, r.buf < h.length) (hgrids : ∀ r ∈ grids, r.buf < h.length)
    (vals : Strided F64) (out : MemArray F32 F64 X) :
    (∃ e h', heapPrepare64 np nx obs grids method assumeRegular checkB atol h = (.error e, h') ∧
      memInterpn64 np nx fma (obs.map h.load) (grids.map h.load) vals method out lin assumeRegular
        checkB atol = .error e) ∨
    ∃ call regular dims starts steps h', ∃ s p : Strided F64,
      heapPrepare64 np nx obs grids method assumeRegular checkB atol h =
        (.ok (call, regular, dims, starts, steps), h') ∧ h <+: h' ∧
      (h'.load starts).extract64 = .ok s ∧ s.Good ∧ h.length ≤ starts.buf ∧
      (h'.load steps).extract64 = .ok p ∧ p.Good ∧ h.length ≤ steps.buf ∧
      memInterpn64 np nx fma (obs.map h.load) (grids.map h.load) vals method out lin assumeRegular
        checkB atol = ((if regular then do
              let obs ← pyEach MemArray.extract64 (obs.map h.load)
              let out ← out.extract64
              memRawRegular fma call.method dims s.contents p.contents vals lin obs out
            else do
              let grids ← pyEach MemArray.extract64 (grids.map h.load)
              let obs ← pyEach MemArray.extract64 (obs.map h.load)
              let out ← out.extract64
              memRawRectilinear fma call.method grids vals lin obs out : Except PyExc (Strided F64)) >>=
          fun r => pure (call, r)) := by
  rw [memInterpn64_eq]
  unfold heapPrepare64
  rw [pyM_bind_ok (pyM_each_read grids h), pyM_ofExcept_bind]
  generalize hreg : (if assumeRegular then pure true
    else npCheckRegular nx true ((grids.map h.load).map MemArray.contents) : Except PyExc Bool) = R
  cases R with
  | error e => exact .inl ⟨e, h, rfl, rfl⟩
  | ok regular =>
  simp only [ok_bind']
  rw [pyM_ofExcept_bind]
  generalize hpar : (if regular then pyEach (NpArray.startStep64 np nx) ((grids.map h.load).map MemArray.contents)
    else pure [] : Except PyExc (List (F64 × F64))) = P
  cases P with
  | error e => exact .inl ⟨e, h, rfl, rfl⟩
  | ok params =>
  simp only [ok_bind']
  set h1 : Heap F32 F64 X := h ++ [.f64 (params.map Prod.fst)] with hh1
  set h2 : Heap F32 F64 X := h1 ++ [.f64 (params.map Prod.snd)] with hh2
  have p1 : h <+: h1 := List.prefix_append _ _
  have p2 : h1 <+: h2 := List.prefix_append _ _
  set rs : Ref := ⟨h.length, 0, [params.length], Strided.cStrides [params.length], true⟩ with hrs
  set rp : Ref := ⟨h1.length, 0, [params.length], Strided.cStrides [params.length], true⟩ with hrp
  rw [pyM_bind_ok (show PyM.alloc _ _ h = (.ok rs, h1) from rfl)]
  rw [pyM_bind_ok (show PyM.alloc _ _ h1 = (.ok rp, h2) from rfl)]
  obtain ⟨s, es, gs, cs⟩ := owned64_field h (params.map Prod.fst) params.length (by simp) h2 p2
  obtain ⟨p, ep, gp, cp⟩ := owned64_field h1 (params.map Prod.snd) params.length (by simp) h2
    List.prefix_rfl
  have hob := loads_of_prefix (p1.trans p2) hobs
  have hgr := loads_of_prefix (p1.trans p2) hgrids
  rw [← cs, ← cp]
  have key : ∀ (D : Except PyExc RawCall)
      (M : RawCall → Except PyExc (RawCall × Strided F64))
      (hM : ∀ call, M call = ((if regular then do
            let obs ← pyEach MemArray.extract64 (obs.map h.load)
            let out ← out.extract64
            memRawRegular fma call.method
              (if regular then ((grids.map h.load).map MemArray.contents).map NpArray.size else [])
              s.contents p.contents vals lin obs out
          else do
            let grids ← pyEach MemArray.extract64 (grids.map h.load)
            let obs ← pyEach MemArray.extract64 (obs.map h.load)
            let out ← out.extract64
            memRawRectilinear fma call.method grids vals lin obs out : Except PyExc (Strided F64)) >>=
        fun r => pure (call, r))),
      (∃ e h', (PyM.ofExcept D >>= fun call => pure (call, regular,
          (if regular then ((grids.map h.load).map MemArray.contents).map NpArray.size else []), rs, rp) :
            PyM F32 F64 X _) h2 = (.error e, h') ∧ (D >>= M) = .error e) ∨
      ∃ call regular' dims starts steps h', ∃ s p : Strided F64,
        (PyM.ofExcept D >>= fun call => pure (call, regular,
          (if regular then ((grids.map h.load).map MemArray.contents).map NpArray.size else []), rs, rp) :
            PyM F32 F64 X _) h2 = (.ok (call, regular', dims, starts, steps), h') ∧ h <+: h' ∧
        (Heap.load h' starts).extract64 = .ok s ∧ s.Good ∧ h.length ≤ starts.buf ∧
        (Heap.load h' steps).extract64 = .ok p ∧ p.Good ∧ h.length ≤ steps.buf ∧
        (D >>= M) = ((if regular' then do
              let obs ← pyEach MemArray.extract64 (obs.map h.load)
              let out ← out.extract64
              memRawRegular fma call.method dims s.contents p.contents vals lin obs out
            else do
              let grids ← pyEach MemArray.extract64 (grids.map h.load)
              let obs ← pyEach MemArray.extract64 (obs.map h.load)
              let out ← out.extract64
              memRawRectilinear fma call.method grids vals lin obs out : Except PyExc (Strided F64)) >>=
          fun r => pure (call, r)) := by
    intro D M hM
    cases D with
    | error e => exact .inl ⟨e, h2, rfl, rfl⟩
    | ok call =>
      refine .inr ⟨call, regular, _, rs, rp, h2, s, p, rfl, p1.trans p2, es, gs, le_rfl, ep, gp, ?_, ?_⟩
      · change h.length ≤ h1.length
        exact p1.length_le
      · exact hM call
  cases checkB with
  | false =>
    simp only [Bool.false_eq_true, if_false]
    exact key _ _ fun call => rfl
  | true =>
    simp only [if_true]
    rw [pyM_bind, checkBounds64_eq, hob, hgr]
    generalize (if regular then do
            let obs ← pyEach MemArray.extract64 (obs.map h.load)
            let obs ← unpackFrom 0 obs
            pyOfRes (checkBoundsRegular
              (if regular then ((grids.map h.load).map MemArray.contents).map NpArray.size else [])
              s.contents p.contents obs atol [false])
          else do
            let grids ← pyEach MemArray.extract64 (grids.map h.load)
            let obs ← pyEach MemArray.extract64 (obs.map h.load)
            let grids ← unpackFrom 0 grids
            let obs ← unpackFrom 0 obs
            pyOfRes (checkBoundsRectilinear grids obs atol [false]) : Except PyExc (List Bool)) = C
    cases C with
    | error e => exact .inl ⟨e, h2, rfl, rfl⟩
    | ok flags =>
      simp only [ok_bind']
      cases flags.any id with
      | true => exact .inl ⟨_, h2, rfl, rfl⟩
      | false => exact key _ _ fun call => rfl

/-- `memInterpn32` as a sequence of stages. -/
theorem memInterpn32_eq (np : Numpy F32 F64 X) (nx : NumpyX X) (fma : Bool)
    (obs grids : List (MemArray F32 F64 X)) (vals : Strided F32) (method : String)
    (out : MemArray F32 F64 X) (lin assumeRegular checkB : Bool) (atol : F64) :
    memInterpn32 np nx fma obs grids vals method out lin assumeRegular checkB atol =
      ((if assumeRegular then pure true else npCheckRegular nx true (grids.map MemArray.contents) :
          Except PyExc Bool) >>= fun regular =>
        (if regular then pyEach (NpArray.startStep32 np nx) (grids.map MemArray.contents) else pure [] :
          Except PyExc (List (F32 × F32))) >>= fun params =>
        (if checkB then
          (if regular then do
            let obs ← pyEach MemArray.extract32 obs
            let obs ← unpackFrom 0 obs
            pyOfRes (checkBoundsRegular
              (if regular then (grids.map MemArray.contents).map NpArray.size else [])
              (params.map Prod.fst) (params.map Prod.snd) obs (np.f32of64 atol) [false])
          else do
            let grids ← pyEach MemArray.extract32 grids
            let obs ← pyEach MemArray.extract32 obs
            let grids ← unpackFrom 0 grids
            let obs ← unpackFrom 0 obs
            pyOfRes (checkBoundsRectilinear grids obs (np.f32of64 atol) [false]) : Except PyExc (List Bool)) >>=
          fun flags =>
            if flags.any id then .error (.valueError "Observation points violate interpolator bounds")
            else pure ()
        else pure () : Except PyExc Unit) >>= fun _ =>
        pyDispatch .float32 regular method >>= fun call =>
        (if regular then do
          let obs ← pyEach MemArray.extract32 obs
          let out ← out.extract32
          memRawRegular fma call.method
            (if regular then (grids.map MemArray.contents).map NpArray.size else [])
            (params.map Prod.fst) (params.map Prod.snd) vals lin obs out
        else do
          let grids ← pyEach MemArray.extract32 grids
          let obs ← pyEach MemArray.extract32 obs
          let out ← out.extract32
          memRawRectilinear fma call.method grids vals lin obs out : Except PyExc (Strided F32)) >>=
        fun r => pure (call, r)) := by
  have hb : ∀ {α β : Type} (c : Prop) [Decidable c] (a b : Except PyExc α) (f : α → Except PyExc β),
      (if c then a else b) >>= f = if c then a >>= f else b >>= f := by
    intro α β c _ a b f
    split <;> rfl
  unfold memInterpn32
  simp only [hb, bind_assoc, pure_bind]

theorem checkBounds32_eq (np : Numpy F32 F64 X) (regular : Bool) (dims : List Nat) (starts steps : List F32)
    (grids obs : List Ref) (atol : F64) (h : Heap F32 F64 X) :
    heapCheckBounds32 np regular dims starts steps grids obs atol h =
      (((if regular then do
            let obs ← pyEach MemArray.extract32 (obs.map h.load)
            let obs ← unpackFrom 0 obs
            pyOfRes (checkBoundsRegular dims starts steps obs (np.f32of64 atol) [false])
          else do
            let grids ← pyEach MemArray.extract32 (grids.map h.load)
            let obs ← pyEach MemArray.extract32 (obs.map h.load)
            let grids ← unpackFrom 0 grids
            let obs ← unpackFrom 0 obs
            pyOfRes (checkBoundsRectilinear grids obs (np.f32of64 atol) [false]) : Except PyExc (List Bool)) >>=
        fun flags =>
          if flags.any id then .error (.valueError "Observation points violate interpolator bounds")
          else pure () : Except PyExc Unit), h) := by
  unfold heapCheckBounds32
  rw [pyM_bind_ok (pyM_each_read grids h), pyM_bind_ok (pyM_each_read obs h), pyM_ofExcept_bind]
  generalize (if regular then _ else _ : Except PyExc (List Bool)) = C
  cases C with
  | error e => rfl
  | ok flags =>
    simp only [ok_bind']
    cases flags.any id <;> rfl

theorem owned32_field (h : Heap F32 F64 X) (d : List F32) (n : Nat) (hn : d.length = n)
    (t : Heap F32 F64 X) (p : (h ++ [.f32 d]) <+: t) :
    ∃ a : Strided F32, (Heap.load t ⟨h.length, 0, [n], Strided.cStrides [n], true⟩).extract32 = .ok a ∧
      a.Good ∧ a.contents = d := by
  rw [load_alloc h (.f32 d) [n] t p]
  obtain ⟨c, wf, k, sh⟩ := owned_contents (F32 := F32) (F64 := F64) (X := X) (.f32 d) [n]
    (by simpa [NpArray.size] using hn)
  refine ⟨⟨d, 0, [n], Strided.cStrides [n]⟩, rfl, ⟨wf, rfl, k⟩, ?_⟩
  exact NpArray.f32.inj c

/-- What `interpn` has done before it calls the raw routine. -/
theorem prepare32_spec (np : Numpy F32 F64 X) (nx : NumpyX X) (fma : Bool) (obs grids : List Ref)
    (method : String) (lin assumeRegular checkB : Bool) (atol : F64) (h : Heap F32 F64 X)
    (hobs : ∀ r ∈ obs, r.buf < h.length) (hgrids : ∀ r ∈ grids, r.buf < h.length)
    (vals : Strided F32) (out : MemArray F32 F64 X) :
    (∃ e h', heapPrepare32 np nx obs grids method assumeRegular checkB atol h = (.error e, h') ∧
      memInterpn32 np nx fma (obs.map h.load) (grids.map h.load) vals method out lin assumeRegular
        checkB atol = .error e) ∨
    ∃ call regular dims starts steps h', ∃ s p : Strided F32,
      heapPrepare32 np nx obs grids method assumeRegular checkB atol h =
        (.ok (call, regular, dims, starts, steps), h') ∧ h <+: h' ∧
      (h'.load starts).extract32 = .ok s ∧ s.Good ∧ h.length ≤ starts.buf ∧
      (h'.load steps).extract32 = .ok p ∧ p.Good ∧ h.length ≤ steps.buf ∧
      memInterpn32 np nx fma (obs.map h.load) (grids.map h.load) vals method out lin assumeRegular
        checkB atol = ((if regular then do
              let obs ← pyEach MemArray.extract32 (obs.map h.load)
              let out ← out.extract32
              memRawRegular fma call.method dims s.contents p.contents vals lin obs out
            else do
              let grids ← pyEach MemArray.extract32 (grids.map h.load)
              let obs ← pyEach MemArray.extract32 (obs.map h.load)
              let out ← out.extract32
              memRawRectilinear fma call.method grids vals lin obs out : Except PyExc (Strided F32)) >>=
          fun r => pure (call, r)) := by
  rw [memInterpn32_eq]
  unfold heapPrepare32
  rw [pyM_bind_ok (pyM_each_read grids h), pyM_ofExcept_bind]
  generalize hreg : (if assumeRegular then pure true
    else npCheckRegular nx true ((grids.map h.load).map MemArray.contents) : Except PyExc Bool) = R
  cases R with
  | error e => exact .inl ⟨e, h, rfl, rfl⟩
  | ok regular =>
  simp only [ok_bind']
  rw [pyM_ofExcept_bind]
  generalize hpar : (if regular then pyEach (NpArray.startStep32 np nx) ((grids.map h.load).map MemArray.contents)
    else pure [] : Except PyExc (List (F32 × F32))) = P
  cases P with
  | error e => exact .inl ⟨e, h, rfl, rfl⟩
  | ok params =>
  simp only [ok_bind']
  set h1 : Heap F32 F64 X := h ++ [.f32 (params.map Prod.fst)] with hh1
  set h2 : Heap F32 F64 X := h1 ++ [.f32 (params.map Prod.snd)] with hh2
  have p1 : h <+: h1 := List.prefix_append _ _
  have p2 : h1 <+: h2 := List.prefix_append _ _
  set rs : Ref := ⟨h.length, 0, [params.length], Strided.cStrides [params.length], true⟩ with hrs
  set rp : Ref := ⟨h1.length, 0, [params.length], Strided.cStrides [params.length], true⟩ with hrp
  rw [pyM_bind_ok (show PyM.alloc _ _ h = (.ok rs, h1) from rfl)]
  rw [pyM_bind_ok (show PyM.alloc _ _ h1 = (.ok rp, h2) from rfl)]
  obtain ⟨s, es, gs, cs⟩ := owned32_field h (params.map Prod.fst) params.length (by simp) h2 p2
  obtain ⟨p, ep, gp, cp⟩ := owned32_field h1 (params.map Prod.snd) params.length (by simp) h2
    List.prefix_rfl
  have hob := loads_of_prefix (p1.trans p2) hobs
  have hgr := loads_of_prefix (p1.trans p2) hgrids
  rw [← cs, ← cp]
  have key : ∀ (D : Except PyExc RawCall)
      (M : RawCall → Except PyExc (RawCall × Strided F32))
      (hM : ∀ call, M call = ((if regular then do
            let obs ← pyEach MemArray.extract32 (obs.map h.load)
            let out ← out.extract32
            memRawRegular fma call.method
              (if regular then ((grids.map h.load).map MemArray.contents).map NpArray.size else [])
              s.contents p.contents vals lin obs out
          else do
            let grids ← pyEach MemArray.extract32 (grids.map h.load)
            let obs ← pyEach MemArray.extract32 (obs.map h.load)
            let out ← out.extract32
            memRawRectilinear fma call.method grids vals lin obs out : Except PyExc (Strided F32)) >>=
        fun r => pure (call, r))),
      (∃ e h', (PyM.ofExcept D >>= fun call => pure (call, regular,
          (if regular then ((grids.map h.load).map MemArray.contents).map NpArray.size else []), rs, rp) :
            PyM F32 F64 X _) h2 = (.error e, h') ∧ (D >>= M) = .error e) ∨
      ∃ call regular' dims starts steps h', ∃ s p : Strided F32,
        (PyM.ofExcept D >>= fun call => pure (call, regular,
          (if regular then ((grids.map h.load).map MemArray.contents).map NpArray.size else []), rs, rp) :
            PyM F32 F64 X _) h2 = (.ok (call, regular', dims, starts, steps), h') ∧ h <+: h' ∧
        (Heap.load h' starts).extract32 = .ok s ∧ s.Good ∧ h.length ≤ starts.buf ∧
        (Heap.load h' steps).extract32 = .ok p ∧ p.Good ∧ h.length ≤ steps.buf ∧
        (D >>= M) = ((if regular' then do
              let obs ← pyEach MemArray.extract32 (obs.map h.load)
              let out ← out.extract32
              memRawRegular fma call.method dims s.contents p.contents vals lin obs out
            else do
              let grids ← pyEach MemArray.extract32 (grids.map h.load)
              let obs ← pyEach MemArray.extract32 (obs.map h.load)
              let out ← out.extract32
              memRawRectilinear fma call.method grids vals lin obs out : Except PyExc (Strided F32)) >>=
          fun r => pure (call, r)) := by
    intro D M hM
    cases D with
    | error e => exact .inl ⟨e, h2, rfl, rfl⟩
    | ok call =>
      refine .inr ⟨call, regular, _, rs, rp, h2, s, p, rfl, p1.trans p2, es, gs, le_rfl, ep, gp, ?_, ?_⟩
      · change h.length ≤ h1.length
        exact p1.length_le
      · exact hM call
  cases checkB with
  | false =>
    simp only [Bool.false_eq_true, if_false]
    exact key _ _ fun call => rfl
  | true =>
    simp only [if_true]
    rw [pyM_bind, checkBounds32_eq, hob, hgr]
    generalize (if regular then do
            let obs ← pyEach MemArray.extract32 (obs.map h.load)
            let obs ← unpackFrom 0 obs
            pyOfRes (checkBoundsRegular
              (if regular then ((grids.map h.load).map MemArray.contents).map NpArray.size else [])
              s.contents p.contents obs (np.f32of64 atol) [false])
          else do
            let grids ← pyEach MemArray.extract32 (grids.map h.load)
            let obs ← pyEach MemArray.extract32 (obs.map h.load)
            let grids ← unpackFrom 0 grids
            let obs ← unpackFrom 0 obs
            pyOfRes (checkBoundsRectilinear grids obs (np.f32of64 atol) [false]) : Except PyExc (List Bool)) = C
    cases C with
    | error e => exact .inl ⟨e, h2, rfl, rfl⟩
    | ok flags =>
      simp only [ok_bind']
      cases flags.any id with
      | true => exact .inl ⟨_, h2, rfl, rfl⟩
      | false => exact key _ _ fun call => rfl

omit [FloatOps F32] [FloatOps F64] in
theorem extract64_of_good {a : MemArray F32 F64 X} {v : Strided F64} (e : a = .f64 v) (g : v.Good) :
    a.extract64 = .ok v := by
  rw [e]
  simp only [MemArray.extract64, g.2.1]
  rfl

/-- On memory where `out` is in a buffer of its own, what `interpn` returns and writes is what the model
without shared memory says. -/
theorem interpn64_refines (B : Borrow) (hB : B.Lawful) (np : Numpy F32 F64 X) (nx : NumpyX X)
    (fma : Bool) (obs grids : List Ref) (vals : Ref) (method : String) (out : Ref)
    (lin assumeRegular checkB : Bool) (atol : F64) (h : Heap F32 F64 X) {v : Strided F64}
    (hobs : ∀ r ∈ obs, r.buf < h.length) (hgrids : ∀ r ∈ grids, r.buf < h.length)
    (hgg : ∀ r ∈ grids, (h.load r).Good) (hvals : vals.buf < h.length) (hv : h.load vals = .f64 v)
    (gv : v.Good) (hout : out.buf < h.length) (hw : out.writeable = true) (sv : vals.buf ≠ out.buf)
    (so : ∀ r ∈ obs, r.buf ≠ out.buf) (sg : ∀ r ∈ grids, r.buf ≠ out.buf) :
    (heapInterpn64 B np nx fma obs grids vals method out lin assumeRegular checkB atol h).1.map
        (fun c => (c, Heap.load
          (heapInterpn64 B np nx fma obs grids vals method out lin assumeRegular checkB atol h).2 out)) =
      (memInterpn64 np nx fma (obs.map h.load) (grids.map h.load) v method (h.load out) lin
        assumeRegular checkB atol).map fun p => (p.1, MemArray.f64 p.2) := by
  unfold heapInterpn64
  rcases prepare64_spec np nx fma obs grids method lin assumeRegular checkB atol h hobs hgrids v
    (h.load out) with ⟨e, h', e1, e2⟩ | ⟨call, regular, dims, starts, steps, h', s, p, e1, pr, es, gs,
      ls, ep, gp, lp, e2⟩
  · rw [pyM_bind_error e1, e2]
    rfl
  · rw [e2, pyM_bind_ok e1]
    have eo : Heap.load h' out = h.load out := load_of_prefix pr hout
    have eob := loads_of_prefix pr hobs
    have eg := loads_of_prefix pr hgrids
    have ev : (Heap.load h' vals).extract64 = .ok v :=
      extract64_of_good ((load_of_prefix pr hvals).trans hv) gv
    cases regular with
    | true =>
      simp only [if_true]
      have hall : B.allowed (starts :: steps :: vals :: obs) out = true := by
        refine hB.separate _ _ hw fun r hr => ?_
        simp only [List.mem_cons] at hr
        rcases hr with rfl | rfl | rfl | hr
        · omega
        · omega
        · exact sv
        · exact so r hr
      have R := rawRegular64_refines B fma call.method dims h' starts steps vals lin obs out es gs ep gp
        ev gv gv rfl hall
      rw [eob, eo] at R
      rw [pyM_bind]
      generalize heapRawRegular64 B fma call.method dims starts steps vals lin obs out h' = Q at R
      obtain ⟨q, h2⟩ := Q
      cases hx : (do
          let obs ← pyEach MemArray.extract64 (obs.map h.load)
          let o ← (h.load out).extract64
          memRawRegular fma call.method dims s.contents p.contents v lin obs o :
            Except PyExc (Strided F64)) with
      | error e =>
        have hx' : (do
            let obs ← pyEach MemArray.extract64 (obs.map h.load)
            let o ← (h.load out).extract64
            let r ← memRawRegular fma call.method dims s.contents p.contents v lin obs o
            return .f64 r : Except PyExc (MemArray F32 F64 X)) = .error e := by
          have := congrArg (fun x => x >>= fun r => (pure (.f64 r) : Except PyExc (MemArray F32 F64 X))) hx
          simp only [bind_assoc] at this
          exact this
        rw [hx'] at R
        cases q with
        | error e' => cases R; rfl
        | ok u => cases R
      | ok r =>
        have hx' : (do
            let obs ← pyEach MemArray.extract64 (obs.map h.load)
            let o ← (h.load out).extract64
            let r ← memRawRegular fma call.method dims s.contents p.contents v lin obs o
            return .f64 r : Except PyExc (MemArray F32 F64 X)) = .ok (.f64 r) := by
          have := congrArg (fun x => x >>= fun r => (pure (.f64 r) : Except PyExc (MemArray F32 F64 X))) hx
          simp only [bind_assoc] at this
          exact this
        rw [hx'] at R
        cases q with
        | error e' => cases R
        | ok u =>
          have R' : Heap.load h2 out = .f64 r := Except.ok.inj R
          change Except.ok (call, Heap.load h2 out) = _
          rw [R']
          rfl
    | false =>
      simp only [Bool.false_eq_true, if_false]
      have hall : B.allowed (grids ++ vals :: obs) out = true := by
        refine hB.separate _ _ hw fun r hr => ?_
        simp only [List.mem_append, List.mem_cons] at hr
        rcases hr with hr | rfl | hr
        · exact sg r hr
        · exact sv
        · exact so r hr
      rw [pyM_bind]
      cases hgx : pyEach MemArray.extract64 (grids.map h.load) with
      | error e =>
        rw [rawRectilinear64_eq]
        unfold planRectilinear64
        rw [eg, hgx]
        rfl
      | ok gl =>
      have ggl : ∀ a ∈ gl, a.Good :=
        (extract64_each _ (fun a ha => by
          obtain ⟨r, hr, rfl⟩ := List.mem_map.1 ha
          exact hgg r hr)).2 gl hgx
      have R := rawRectilinear64_refines B fma call.method h' grids vals lin obs out
        (by rw [eg, hgx]) ggl ggl rfl ev gv gv rfl hall
      rw [eob, eo] at R
      generalize heapRawRectilinear64 B fma call.method grids vals lin obs out h' = Q at R
      obtain ⟨q, h2⟩ := Q
      simp only [ok_bind']
      cases hx : (do
          let obs ← pyEach MemArray.extract64 (obs.map h.load)
          let o ← (h.load out).extract64
          memRawRectilinear fma call.method gl v lin obs o : Except PyExc (Strided F64)) with
      | error e =>
        have hx' : (do
            let obs ← pyEach MemArray.extract64 (obs.map h.load)
            let o ← (h.load out).extract64
            let r ← memRawRectilinear fma call.method gl v lin obs o
            return .f64 r : Except PyExc (MemArray F32 F64 X)) = .error e := by
          have := congrArg (fun x => x >>= fun r => (pure (.f64 r) : Except PyExc (MemArray F32 F64 X))) hx
          simp only [bind_assoc] at this
          exact this
        rw [hx'] at R
        cases q with
        | error e' => cases R; rfl
        | ok u => cases R
      | ok r =>
        have hx' : (do
            let obs ← pyEach MemArray.extract64 (obs.map h.load)
            let o ← (h.load out).extract64
            let r ← memRawRectilinear fma call.method gl v lin obs o
            return .f64 r : Except PyExc (MemArray F32 F64 X)) = .ok (.f64 r) := by
          have := congrArg (fun x => x >>= fun r => (pure (.f64 r) : Except PyExc (MemArray F32 F64 X))) hx
          simp only [bind_assoc] at this
          exact this
        rw [hx'] at R
        cases q with
        | error e' => cases R
        | ok u =>
          have R' : Heap.load h2 out = .f64 r := Except.ok.inj R
          change Except.ok (call, Heap.load h2 out) = _
          rw [R']
          rfl

omit [FloatOps F32] [FloatOps F64] in
theorem extract32_of_good {a : MemArray F32 F64 X} {v : Strided F32} (e : a = .f32 v) (g : v.Good) :
    a.extract32 = .ok v := by
  rw [e]
  simp only [MemArray.extract32, g.2.1]
  rfl

/-- On memory where `out` is in a buffer of its own, what `interpn` returns and writes is what the model
without shared memory says. -/
theorem interpn32_refines (B : Borrow) (hB : B.Lawful) (np : Numpy F32 F64 X) (nx : NumpyX X)
    (fma : Bool) (obs grids : List Ref) (vals : Ref) (method : String) (out : Ref)
    (lin assumeRegular checkB : Bool) (atol : F64) (h : Heap F32 F64 X) {v : Strided F32}
    (hobs : ∀ r ∈ obs, r.buf < h.length) (hgrids : ∀ r ∈ grids, r.buf < h.length)
    (hgg : ∀ r ∈ grids, (h.load r).Good) (hvals : vals.buf < h.length) (hv : h.load vals = .f32 v)
    (gv : v.Good) (hout : out.buf < h.length) (hw : out.writeable = true) (sv : vals.buf ≠ out.buf)
    (so : ∀ r ∈ obs, r.buf ≠ out.buf) (sg : ∀ r ∈ grids, r.buf ≠ out.buf) :
    (heapInterpn32 B np nx fma obs grids vals method out lin assumeRegular checkB atol h).1.map
        (fun c => (c, Heap.load
          (heapInterpn32 B np nx fma obs grids vals method out lin assumeRegular checkB atol h).2 out)) =
      (memInterpn32 np nx fma (obs.map h.load) (grids.map h.load) v method (h.load out) lin
        assumeRegular checkB atol).map fun p => (p.1, MemArray.f32 p.2) := by
  unfold heapInterpn32
  rcases prepare32_spec np nx fma obs grids method lin assumeRegular checkB atol h hobs hgrids v
    (h.load out) with ⟨e, h', e1, e2⟩ | ⟨call, regular, dims, starts, steps, h', s, p, e1, pr, es, gs,
      ls, ep, gp, lp, e2⟩
  · rw [pyM_bind_error e1, e2]
    rfl
  · rw [e2, pyM_bind_ok e1]
    have eo : Heap.load h' out = h.load out := load_of_prefix pr hout
    have eob := loads_of_prefix pr hobs
    have eg := loads_of_prefix pr hgrids
    have ev : (Heap.load h' vals).extract32 = .ok v :=
      extract32_of_good ((load_of_prefix pr hvals).trans hv) gv
    cases regular with
    | true =>
      simp only [if_true]
      have hall : B.allowed (starts :: steps :: vals :: obs) out = true := by
        refine hB.separate _ _ hw fun r hr => ?_
        simp only [List.mem_cons] at hr
        rcases hr with rfl | rfl | rfl | hr
        · omega
        · omega
        · exact sv
        · exact so r hr
      have R := rawRegular32_refines B fma call.method dims h' starts steps vals lin obs out es gs ep gp
        ev gv gv rfl hall
      rw [eob, eo] at R
      rw [pyM_bind]
      generalize heapRawRegular32 B fma call.method dims starts steps vals lin obs out h' = Q at R
      obtain ⟨q, h2⟩ := Q
      cases hx : (do
          let obs ← pyEach MemArray.extract32 (obs.map h.load)
          let o ← (h.load out).extract32
          memRawRegular fma call.method dims s.contents p.contents v lin obs o :
            Except PyExc (Strided F32)) with
      | error e =>
        have hx' : (do
            let obs ← pyEach MemArray.extract32 (obs.map h.load)
            let o ← (h.load out).extract32
            let r ← memRawRegular fma call.method dims s.contents p.contents v lin obs o
            return .f32 r : Except PyExc (MemArray F32 F64 X)) = .error e := by
          have := congrArg (fun x => x >>= fun r => (pure (.f32 r) : Except PyExc (MemArray F32 F64 X))) hx
          simp only [bind_assoc] at this
          exact this
        rw [hx'] at R
        cases q with
        | error e' => cases R; rfl
        | ok u => cases R
      | ok r =>
        have hx' : (do
            let obs ← pyEach MemArray.extract32 (obs.map h.load)
            let o ← (h.load out).extract32
            let r ← memRawRegular fma call.method dims s.contents p.contents v lin obs o
            return .f32 r : Except PyExc (MemArray F32 F64 X)) = .ok (.f32 r) := by
          have := congrArg (fun x => x >>= fun r => (pure (.f32 r) : Except PyExc (MemArray F32 F64 X))) hx
          simp only [bind_assoc] at this
          exact this
        rw [hx'] at R
        cases q with
        | error e' => cases R
        | ok u =>
          have R' : Heap.load h2 out = .f32 r := Except.ok.inj R
          change Except.ok (call, Heap.load h2 out) = _
          rw [R']
          rfl
    | false =>
      simp only [Bool.false_eq_true, if_false]
      have hall : B.allowed (grids ++ vals :: obs) out = true := by
        refine hB.separate _ _ hw fun r hr => ?_
        simp only [List.mem_append, List.mem_cons] at hr
        rcases hr with hr | rfl | hr
        · exact sg r hr
        · exact sv
        · exact so r hr
      rw [pyM_bind]
      cases hgx : pyEach MemArray.extract32 (grids.map h.load) with
      | error e =>
        rw [rawRectilinear32_eq]
        unfold planRectilinear32
        rw [eg, hgx]
        rfl
      | ok gl =>
      have ggl : ∀ a ∈ gl, a.Good :=
        (extract32_each _ (fun a ha => by
          obtain ⟨r, hr, rfl⟩ := List.mem_map.1 ha
          exact hgg r hr)).2 gl hgx
      have R := rawRectilinear32_refines B fma call.method h' grids vals lin obs out
        (by rw [eg, hgx]) ggl ggl rfl ev gv gv rfl hall
      rw [eob, eo] at R
      generalize heapRawRectilinear32 B fma call.method grids vals lin obs out h' = Q at R
      obtain ⟨q, h2⟩ := Q
      simp only [ok_bind']
      cases hx : (do
          let obs ← pyEach MemArray.extract32 (obs.map h.load)
          let o ← (h.load out).extract32
          memRawRectilinear fma call.method gl v lin obs o : Except PyExc (Strided F32)) with
      | error e =>
        have hx' : (do
            let obs ← pyEach MemArray.extract32 (obs.map h.load)
            let o ← (h.load out).extract32
            let r ← memRawRectilinear fma call.method gl v lin obs o
            return .f32 r : Except PyExc (MemArray F32 F64 X)) = .error e := by
          have := congrArg (fun x => x >>= fun r => (pure (.f32 r) : Except PyExc (MemArray F32 F64 X))) hx
          simp only [bind_assoc] at this
          exact this
        rw [hx'] at R
        cases q with
        | error e' => cases R; rfl
        | ok u => cases R
      | ok r =>
        have hx' : (do
            let obs ← pyEach MemArray.extract32 (obs.map h.load)
            let o ← (h.load out).extract32
            let r ← memRawRectilinear fma call.method gl v lin obs o
            return .f32 r : Except PyExc (MemArray F32 F64 X)) = .ok (.f32 r) := by
          have := congrArg (fun x => x >>= fun r => (pure (.f32 r) : Except PyExc (MemArray F32 F64 X))) hx
          simp only [bind_assoc] at this
          exact this
        rw [hx'] at R
        cases q with
        | error e' => cases R
        | ok u =>
          have R' : Heap.load h2 out = .f32 r := Except.ok.inj R
          change Except.ok (call, Heap.load h2 out) = _
          rw [R']
          rfl

end Interpn
