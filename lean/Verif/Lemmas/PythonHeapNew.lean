import Verif.Lemmas.PythonHeapFunction

/-! Construction of objects on shared memory, and programs. -/

set_option autoImplicit false

namespace Interpn
open FloatOps

variable {F32 F64 X : Type} [FloatOps F32] [FloatOps F64]

omit [FloatOps F32] [FloatOps F64] in
theorem pyM_assoc {α β γ : Type} (x : PyM F32 F64 X α) (f : α → PyM F32 F64 X β)
    (g : β → PyM F32 F64 X γ) (h : Heap F32 F64 X) :
    (x >>= fun a => f a >>= g) h = ((x >>= f) >>= g) h := by
  simp only [pyM_bind]
  generalize x h = r
  obtain ⟨r, h'⟩ := r
  cases r <;> rfl

theorem grows_validate {α β : Type} (v : Heap F32 F64 X → Except PyExc α) (b : β) :
    Grows (fun h => ((v h).map fun _ => b, h) : PyM F32 F64 X β) := fun _ => List.prefix_rfl

theorem RegularRef.grows_new (np : Numpy F32 F64 X) (kind : ClassKind) (dims : List Int)
    (starts steps vals : Ref) : Grows (RegularRef.new np kind dims starts steps vals) :=
  (grows_read _).bind fun _ => (grows_flatten _).bind fun _ => (grows_array _ _ _).bind fun _ =>
    (grows_flatten _).bind fun _ => (grows_array _ _ _).bind fun _ => (grows_flatten _).bind fun _ =>
    (grows_array _ _ _).bind fun _ => fun _ => List.prefix_rfl

theorem RectilinearRef.grows_new (np : Numpy F32 F64 X) (kind : ClassKind) (grids : List Ref)
    (vals : Ref) : Grows (RectilinearRef.new np kind grids vals) :=
  (grows_read _).bind fun _ =>
    (grows_each (fun _ => (grows_flatten _).bind fun _ => grows_array _ _ _) _).bind fun _ =>
    (grows_flatten _).bind fun _ => (grows_array _ _ _).bind fun _ => fun _ => List.prefix_rfl

theorem castArr_eq (np : Numpy F32 F64 X) (v : MemArray F32 F64 X) (a : NpArray F32 F64 X) :
    castArr np (match v with
      | .f64 _ => true
      | _ => false) a = NpArray.arrtype np v.contents a := by
  cases v <;> rfl

theorem RegularRef.new_spec (np : Numpy F32 F64 X) (kind : ClassKind) (dims : List Int)
    (starts steps vals : Ref) (h : Heap F32 F64 X) (hs : starts.In h) (hp : steps.In h)
    (hv : vals.In h) :
    ∃ m h', RegularRef.new np kind dims starts steps vals h =
        ((RegularRef.load m h').validate.map fun _ => m, h') ∧
      RegularRef.load m h' = ⟨kind, dims, NpArray.arrtype np (h.load vals).contents (h.load starts).contents,
        NpArray.arrtype np (h.load vals).contents (h.load steps).contents,
        NpArray.arrtype np (h.load vals).contents (h.load vals).contents⟩ ∧
      m.Sound h' ∧ m.bufs.Nodup ∧ ∀ b ∈ m.bufs, h.length ≤ b := by
  set is64 : Bool := match h.load vals with
    | .f64 _ => true
    | _ => false with h64
  obtain ⟨s, h1, e1, p1, b1, b1', F1, a1⟩ := field_spec np is64 starts h hs.2
  obtain ⟨p, h2, e2, p2, b2, b2', F2, a2⟩ := field_spec np is64 steps h1 (hp.mono p1).2
  obtain ⟨w, h3, e3, p3, b3, b3', F3, a3⟩ := field_spec np is64 vals h2 (hv.mono (p1.trans p2)).2
  refine ⟨⟨kind, dims, s, p, w⟩, h3, ?_, ?_, ⟨F1.mono (p2.trans p3), F2.mono p3, F3⟩, ?_, ?_⟩
  · unfold RegularRef.new
    rw [pyM_read_bind]
    change (heapFlatten starts >>= fun s => heapArray np is64 s >>= fun s => _) h = _
    rw [pyM_assoc, pyM_bind_ok e1]
    change (heapFlatten steps >>= fun s => heapArray np is64 s >>= fun s => _) h1 = _
    rw [pyM_assoc, pyM_bind_ok e2]
    exact (pyM_assoc (heapFlatten vals) (fun x => heapArray np is64 x)
      (fun w => (fun h => (((⟨kind, dims, s, p, w⟩ : RegularRef).load h).validate.map
        fun _ => (⟨kind, dims, s, p, w⟩ : RegularRef), h) : PyM F32 F64 X RegularRef)) h2).trans
      (pyM_bind_ok e3)
  · unfold RegularRef.load
    simp only
    rw [a3, arr_of_load (load_of_prefix p3 F2.1.1), a2,
      arr_of_load (load_of_prefix (p2.trans p3) F1.1.1), a1, load_of_prefix p1 hp.1,
      load_of_prefix (p1.trans p2) hv.1, h64]
    simp only [castArr_eq]
  · simp only [RegularRef.bufs, List.nodup_cons, List.mem_cons, List.not_mem_nil, or_false,
      not_or, List.nodup_nil, and_true, not_false_eq_true]
    omega
  · have := p1.length_le
    have := p2.length_le
    simp only [RegularRef.bufs, List.mem_cons, List.not_mem_nil, or_false]
    rintro b (rfl | rfl | rfl) <;> omega

theorem RectilinearRef.new_spec (np : Numpy F32 F64 X) (kind : ClassKind) (grids : List Ref)
    (vals : Ref) (h : Heap F32 F64 X) (hg : ∀ g ∈ grids, g.In h) (hv : vals.In h) :
    ∃ m h', RectilinearRef.new np kind grids vals h =
        ((RectilinearRef.load m h').validate.map fun _ => m, h') ∧
      RectilinearRef.load m h' = ⟨kind,
        grids.map fun g => NpArray.arrtype np (h.load vals).contents (h.load g).contents,
        NpArray.arrtype np (h.load vals).contents (h.load vals).contents⟩ ∧
      m.Sound h' ∧ m.bufs.Nodup ∧ ∀ b ∈ m.bufs, h.length ≤ b := by
  set is64 : Bool := match h.load vals with
    | .f64 _ => true
    | _ => false with h64
  obtain ⟨gs, h1, e1, p1, F1, n1, a1⟩ := fields_spec np is64 grids h hg
  obtain ⟨w, h2, e2, p2, b2, b2', F2, a2⟩ := field_spec np is64 vals h1 (hv.mono p1).2
  refine ⟨⟨kind, gs, w⟩, h2, ?_, ?_, ⟨fun g hg' => (F1 g hg').2.mono p2, F2⟩, ?_, ?_⟩
  · unfold RectilinearRef.new
    rw [pyM_read_bind]
    change (PyM.each (fun r => heapFlatten r >>= fun x => heapArray np is64 x) grids >>= fun g => _) h = _
    rw [pyM_bind_ok e1]
    exact (pyM_assoc (heapFlatten vals) (fun x => heapArray np is64 x)
      (fun w => (fun h => (((⟨kind, gs, w⟩ : RectilinearRef).load h).validate.map
        fun _ => (⟨kind, gs, w⟩ : RectilinearRef), h) : PyM F32 F64 X RectilinearRef)) h1).trans
      (pyM_bind_ok e2)
  · unfold RectilinearRef.load
    simp only
    have hgs : gs.map (Heap.arr h2) = gs.map (Heap.arr h1) :=
      List.map_congr_left fun g hg' => arr_of_load (load_of_prefix p2 (F1 g hg').2.1.1)
    rw [hgs, a1, a2, load_of_prefix p1 hv.1, h64]
    simp only [castArr_eq]
  · simp only [RectilinearRef.bufs, List.nodup_cons]
    refine ⟨fun hm => ?_, n1⟩
    obtain ⟨g, hg', e⟩ := List.mem_map.1 hm
    have := (F1 g hg').2.1.1
    omega
  · have := p1.length_le
    simp only [RectilinearRef.bufs, List.mem_cons, List.mem_map]
    rintro b (rfl | ⟨g, hg', rfl⟩)
    · omega
    · exact (F1 g hg').1

/-! #### Frames of the methods -/

theorem RegularRef.eval_frame (B : Borrow) (np : Numpy F32 F64 X) (fma : Bool) (m : RegularRef)
    (obs : List Ref) (out : Option Ref) (h : Heap F32 F64 X) (ho : ∀ o ∈ out, o.In h) :
    (∃ e h', m.eval B np fma obs out h = (.error e, h') ∧ h <+: h' ∧ (out ≠ none → h' = h)) ∨
    ((∀ o ∈ out, B.allowed (m.starts :: m.steps :: m.vals :: obs) o = true) ∧
      Heap.SameExcept out.toList h (m.eval B np fma obs out h).2) := by
  rcases heapOut_spec np obs out h ho with ⟨e1, -⟩ | ⟨o, h1, e1, p1, i1, -, c1⟩
  · refine .inl ⟨.indexError, h, ?_, List.prefix_rfl, fun _ => rfl⟩
    unfold RegularRef.eval
    rw [pyM_bind_error e1]
  · rw [RegularRef.eval_eq B np fma m obs out e1]
    rcases m.call_frame B fma obs o h1 i1.2 with ⟨e, he⟩ | ⟨ha, hf⟩
    · refine .inl ⟨e, h1, by rw [he]; rfl, p1, fun hn => ?_⟩
      rcases c1 with ⟨-, hh⟩ | ⟨hn', -⟩
      · exact hh
      · exact absurd hn' hn
    · refine .inr ⟨?_, ?_⟩
      · rintro o' ho'
        rcases c1 with ⟨rfl, -⟩ | ⟨rfl, -⟩
        · cases ho'
          exact ha
        · cases ho'
      · rcases c1 with ⟨rfl, rfl⟩ | ⟨rfl, hb, -⟩
        · exact hf
        · exact hf.fresh p1 fun x hx => by simp at hx; rw [hx, hb]

theorem RectilinearRef.eval_frame (B : Borrow) (np : Numpy F32 F64 X) (fma : Bool) (m : RectilinearRef)
    (obs : List Ref) (out : Option Ref) (h : Heap F32 F64 X) (ho : ∀ o ∈ out, o.In h) :
    (∃ e h', m.eval B np fma obs out h = (.error e, h') ∧ h <+: h' ∧ (out ≠ none → h' = h)) ∨
    ((∀ o ∈ out, B.allowed (m.grids ++ m.vals :: obs) o = true) ∧
      Heap.SameExcept out.toList h (m.eval B np fma obs out h).2) := by
  rcases heapOut_spec np obs out h ho with ⟨e1, -⟩ | ⟨o, h1, e1, p1, i1, -, c1⟩
  · refine .inl ⟨.indexError, h, ?_, List.prefix_rfl, fun _ => rfl⟩
    unfold RectilinearRef.eval
    rw [pyM_bind_error e1]
  · rw [RectilinearRef.eval_eq B np fma m obs out e1]
    rcases m.call_frame B fma obs o h1 i1.2 with ⟨e, he⟩ | ⟨ha, hf⟩
    · refine .inl ⟨e, h1, by rw [he]; rfl, p1, fun hn => ?_⟩
      rcases c1 with ⟨-, hh⟩ | ⟨hn', -⟩
      · exact hh
      · exact absurd hn' hn
    · refine .inr ⟨?_, ?_⟩
      · rintro o' ho'
        rcases c1 with ⟨rfl, -⟩ | ⟨rfl, -⟩
        · cases ho'
          exact ha
        · cases ho'
      · rcases c1 with ⟨rfl, rfl⟩ | ⟨rfl, hb, -⟩
        · exact hf
        · exact hf.fresh p1 fun x hx => by simp at hx; rw [hx, hb]

theorem RegularRef.eval_same (B : Borrow) (np : Numpy F32 F64 X) (fma : Bool) (m : RegularRef)
    (obs : List Ref) (out : Option Ref) (h : Heap F32 F64 X) (ho : ∀ o ∈ out, o.In h) :
    Heap.SameExcept out.toList h (m.eval B np fma obs out h).2 := by
  rcases m.eval_frame B np fma obs out h ho with ⟨e, h', he, p, -⟩ | ⟨-, hf⟩
  · rw [he]
    exact sameExcept_of_prefix p
  · exact hf

theorem RectilinearRef.eval_same (B : Borrow) (np : Numpy F32 F64 X) (fma : Bool) (m : RectilinearRef)
    (obs : List Ref) (out : Option Ref) (h : Heap F32 F64 X) (ho : ∀ o ∈ out, o.In h) :
    Heap.SameExcept out.toList h (m.eval B np fma obs out h).2 := by
  rcases m.eval_frame B np fma obs out h ho with ⟨e, h', he, p, -⟩ | ⟨-, hf⟩
  · rw [he]
    exact sameExcept_of_prefix p
  · exact hf

/-! #### Refinement -/

theorem RegularRef.eval_refines (B : Borrow) (hB : B.Lawful) (np : Numpy F32 F64 X) (fma : Bool)
    (m : RegularRef) (obs : List Ref) (out : Option Ref) (h : Heap F32 F64 X) (hm : m.Sound h)
    (hobs : ∀ r ∈ obs, r.In h) (ho : ∀ o ∈ out, o.In h)
    (hall : ∀ o ∈ out, B.allowed (m.starts :: m.steps :: m.vals :: obs) o = true) :
    (m.eval B np fma obs out h).1.map (fun r => Heap.load (m.eval B np fma obs out h).2 r) =
      (m.load h).evalMem np fma (obs.map h.load) (out.map h.load) ∧
    ∀ r, (m.eval B np fma obs out h).1 = .ok r → out = some r ∨ (out = none ∧ r.buf = h.length) := by
  rcases heapOut_spec np obs out h ho with ⟨e1, m1⟩ | ⟨o, h1, e1, p1, i1, m1, c1⟩
  · have he : m.eval B np fma obs out h = (.error .indexError, h) := by
      unfold RegularRef.eval
      rw [pyM_bind_error e1]
    rw [he]
    refine ⟨?_, fun r hr => by cases hr⟩
    unfold RegularObj.evalMem
    rw [m1]
    rfl
  · rw [RegularRef.eval_eq B np fma m obs out e1]
    have hm1 : m.Sound h1 := ⟨hm.1.mono p1, hm.2.1.mono p1, hm.2.2.mono p1⟩
    have hall1 : B.allowed (m.starts :: m.steps :: m.vals :: obs) o = true := by
      rcases c1 with ⟨rfl, -⟩ | ⟨rfl, hb, hw⟩
      · exact hall o rfl
      · refine hB.separate _ _ hw fun r hr => ?_
        simp only [List.mem_cons] at hr
        rcases hr with rfl | rfl | rfl | hr
        · have := hm.1.1.1; omega
        · have := hm.2.1.1.1; omega
        · have := hm.2.2.1.1; omega
        · have := (hobs r hr).1; omega
    have eobs : obs.map (Heap.load h1) = obs.map h.load := loads_of_prefix p1 fun r hr => (hobs r hr).1
    have hmem : memOut np (obs.map h1.load) (out.map h.load) = .ok (h1.load o) := by rw [eobs, m1]
    have R := m.call_refines B np fma obs o h1 hm1 hall1 hmem
    have el : m.load h1 = m.load h := by
      unfold RegularRef.load
      rw [arr_of_load (load_of_prefix p1 hm.1.1.1), arr_of_load (load_of_prefix p1 hm.2.1.1.1),
        arr_of_load (load_of_prefix p1 hm.2.2.1.1)]
    rw [eobs, el] at R
    rw [← R]
    generalize m.call B fma obs o h1 = Q
    obtain ⟨q, h2⟩ := Q
    cases q with
    | error e => exact ⟨rfl, fun r hr => by cases hr⟩
    | ok u =>
      refine ⟨rfl, fun r hr => ?_⟩
      cases hr
      rcases c1 with ⟨rfl, -⟩ | ⟨rfl, hb, -⟩
      · exact .inl rfl
      · exact .inr ⟨rfl, hb⟩

theorem RectilinearRef.eval_refines (B : Borrow) (hB : B.Lawful) (np : Numpy F32 F64 X) (fma : Bool)
    (m : RectilinearRef) (obs : List Ref) (out : Option Ref) (h : Heap F32 F64 X) (hm : m.Sound h)
    (hobs : ∀ r ∈ obs, r.In h) (ho : ∀ o ∈ out, o.In h)
    (hall : ∀ o ∈ out, B.allowed (m.grids ++ m.vals :: obs) o = true) :
    (m.eval B np fma obs out h).1.map (fun r => Heap.load (m.eval B np fma obs out h).2 r) =
      (m.load h).evalMem np fma (obs.map h.load) (out.map h.load) ∧
    ∀ r, (m.eval B np fma obs out h).1 = .ok r → out = some r ∨ (out = none ∧ r.buf = h.length) := by
  rcases heapOut_spec np obs out h ho with ⟨e1, m1⟩ | ⟨o, h1, e1, p1, i1, m1, c1⟩
  · have he : m.eval B np fma obs out h = (.error .indexError, h) := by
      unfold RectilinearRef.eval
      rw [pyM_bind_error e1]
    rw [he]
    refine ⟨?_, fun r hr => by cases hr⟩
    unfold RectilinearObj.evalMem
    rw [m1]
    rfl
  · rw [RectilinearRef.eval_eq B np fma m obs out e1]
    have hm1 : m.Sound h1 := ⟨fun g hg => (hm.1 g hg).mono p1, hm.2.mono p1⟩
    have hall1 : B.allowed (m.grids ++ m.vals :: obs) o = true := by
      rcases c1 with ⟨rfl, -⟩ | ⟨rfl, hb, hw⟩
      · exact hall o rfl
      · refine hB.separate _ _ hw fun r hr => ?_
        simp only [List.mem_append, List.mem_cons] at hr
        rcases hr with hr | rfl | hr
        · have := (hm.1 r hr).1.1; omega
        · have := hm.2.1.1; omega
        · have := (hobs r hr).1; omega
    have eobs : obs.map (Heap.load h1) = obs.map h.load := loads_of_prefix p1 fun r hr => (hobs r hr).1
    have hmem : memOut np (obs.map h1.load) (out.map h.load) = .ok (h1.load o) := by rw [eobs, m1]
    have R := m.call_refines B np fma obs o h1 hm1 hall1 hmem
    have el : m.load h1 = m.load h := by
      unfold RectilinearRef.load
      rw [arr_of_load (load_of_prefix p1 hm.2.1.1)]
      congr 1
      exact List.map_congr_left fun g hg => arr_of_load (load_of_prefix p1 (hm.1 g hg).1.1)
    rw [eobs, el] at R
    rw [← R]
    generalize m.call B fma obs o h1 = Q
    obtain ⟨q, h2⟩ := Q
    cases q with
    | error e => exact ⟨rfl, fun r hr => by cases hr⟩
    | ok u =>
      refine ⟨rfl, fun r hr => ?_⟩
      cases hr
      rcases c1 with ⟨rfl, -⟩ | ⟨rfl, hb, -⟩
      · exact .inl rfl
      · exact .inr ⟨rfl, hb⟩

/-! #### Programs -/

/-- One operation leaves the buffers alone that it was not told to write to. -/
theorem PyOp.run_get (B : Borrow) (np : Numpy F32 F64 X) (nx : NumpyX X) (fma : Bool)
    (h : Heap F32 F64 X) (op : PyOp F32 F64 X) (hv : op.Valid h) {b : Nat} (hb : b < h.length)
    (ht : b ∉ op.targets) : (op.run B np nx fma h)[b]? = h[b]? := by
  have frame : ∀ (out : Option Ref) (h' : Heap F32 F64 X), Heap.SameExcept out.toList h h' →
      b ∉ (out.map Ref.buf).toList → h'[b]? = h[b]? := by
    intro out h' hs hn
    refine hs.get hb fun o ho e => hn ?_
    cases out with
    | none => simp at ho
    | some o' =>
      simp only [Option.toList_some, List.mem_singleton] at ho
      subst ho
      simp [e]
  cases op with
  | create d => exact prefix_get (List.prefix_append _ _) hb
  | assign b' d =>
    simp only [PyOp.targets, List.mem_singleton] at ht
    exact List.getElem?_set_ne (Ne.symm ht)
  | newRegular kind dims s p v => exact prefix_get (RegularRef.grows_new np kind dims s p v h) hb
  | newRectilinear kind g v => exact prefix_get (RectilinearRef.grows_new np kind g v h) hb
  | evalRegular m obs out => exact frame out _ (m.eval_same B np fma obs out h hv) ht
  | evalRectilinear m obs out => exact frame out _ (m.eval_same B np fma obs out h hv) ht
  | interpn obs grids vals method out lin ar cb atol =>
    exact frame out _ (interpn_frame B np nx fma obs grids vals method out lin ar cb atol h hv) ht

theorem PyOp.runAll_get (B : Borrow) (np : Numpy F32 F64 X) (nx : NumpyX X) (fma : Bool)
    (ops : List (PyOp F32 F64 X)) : ∀ (h : Heap F32 F64 X), PyOp.ValidAll B np nx fma h ops →
    ∀ {b : Nat}, b < h.length → (∀ op ∈ ops, b ∉ op.targets) →
      (PyOp.runAll B np nx fma h ops)[b]? = h[b]? := by
  induction ops with
  | nil => exact fun h _ b _ _ => rfl
  | cons op rest ih =>
    intro h hv b hb ht
    have h1 := PyOp.run_get B np nx fma h op hv.1 hb (ht op (by simp))
    have hb1 : b < (op.run B np nx fma h).length := by
      rw [List.getElem?_eq_getElem hb] at h1
      exact (List.getElem?_eq_some_iff.1 h1).1
    have h2 := ih (op.run B np nx fma h) hv.2 hb1 fun op' hop' => ht op' (by simp [hop'])
    exact h2.trans h1

theorem Ref.Field.congr {h h' : Heap F32 F64 X} {r : Ref} (hr : r.Field h) (e : h'[r.buf]? = h[r.buf]?) :
    r.Field h' ∧ Heap.arr h' r = Heap.arr h r := by
  have el := load_of_getElem? e
  refine ⟨⟨⟨?_, ?_⟩, ?_, ?_⟩, arr_of_load el⟩
  · rw [List.getElem?_eq_getElem hr.1.1] at e
    exact (List.getElem?_eq_some_iff.1 e).1
  · rw [el]; exact hr.1.2
  · rw [el]; exact hr.2.1
  · rw [el]; exact hr.2.2

end Interpn
