import Verif.Lemmas.PythonHeapNew
import Verif.Lemmas.RatOps
import Verif.Props.PythonLayout

/-! C108: which memory the Python interface reads, writes and keeps. -/

set_option autoImplicit false

namespace Interpn
open FloatOps

variable {F32 F64 X : Type} [FloatOps F32] [FloatOps F64]

/-! ### Construction copies -/

/-- C108: `new` of the classes on regular grids changes no array of the caller and gives the object that
`new` gives on the contents of the arguments; the arrays of the object lie in new buffers, one each. -/
theorem C108_new_regular (np : Numpy F32 F64 X) (kind : ClassKind) (dims : List Int)
    (starts steps vals : Ref) (h : Heap F32 F64 X) (hs : starts.In h) (hp : steps.In h)
    (hv : vals.In h) :
    Heap.SameExcept [] h (RegularRef.new np kind dims starts steps vals h).2 ∧
    (RegularRef.new np kind dims starts steps vals h).1.map
        (fun m => m.load (RegularRef.new np kind dims starts steps vals h).2) =
      RegularObj.new np kind dims (h.load starts).contents (h.load steps).contents
        (h.load vals).contents ∧
    ∀ m, (RegularRef.new np kind dims starts steps vals h).1 = .ok m →
      m.Sound (RegularRef.new np kind dims starts steps vals h).2 ∧ m.bufs.Nodup ∧
      ∀ b ∈ m.bufs, h.length ≤ b := by
  refine ⟨sameExcept_of_prefix (RegularRef.grows_new np kind dims starts steps vals h), ?_, ?_⟩
  · obtain ⟨m, h', e, l, -⟩ := RegularRef.new_spec np kind dims starts steps vals h hs hp hv
    rw [e]
    unfold RegularObj.new RegularObj.construct
    rw [l]
    simp only
    generalize RegularObj.validate (F32 := F32) (F64 := F64) _ = V
    cases V with
    | error e => rfl
    | ok u =>
      change Except.ok (RegularRef.load m h') = _
      rw [l]
      rfl
  · intro m hm
    obtain ⟨m', h', e, l, s, n, f⟩ := RegularRef.new_spec np kind dims starts steps vals h hs hp hv
    rw [e] at hm ⊢
    cases hV : (RegularRef.load m' h').validate with
    | error e' => rw [hV] at hm; cases hm
    | ok u => rw [hV] at hm; cases hm; exact ⟨s, n, f⟩

/-- C108: the same for the classes on rectilinear grids. -/
theorem C108_new_rectilinear (np : Numpy F32 F64 X) (kind : ClassKind) (grids : List Ref) (vals : Ref)
    (h : Heap F32 F64 X) (hg : ∀ g ∈ grids, g.In h) (hv : vals.In h) :
    Heap.SameExcept [] h (RectilinearRef.new np kind grids vals h).2 ∧
    (RectilinearRef.new np kind grids vals h).1.map
        (fun m => m.load (RectilinearRef.new np kind grids vals h).2) =
      RectilinearObj.new np kind (grids.map fun g => (h.load g).contents) (h.load vals).contents ∧
    ∀ m, (RectilinearRef.new np kind grids vals h).1 = .ok m →
      m.Sound (RectilinearRef.new np kind grids vals h).2 ∧ m.bufs.Nodup ∧
      ∀ b ∈ m.bufs, h.length ≤ b := by
  refine ⟨sameExcept_of_prefix (RectilinearRef.grows_new np kind grids vals h), ?_, ?_⟩
  · obtain ⟨m, h', e, l, -⟩ := RectilinearRef.new_spec np kind grids vals h hg hv
    rw [e]
    unfold RectilinearObj.new RectilinearObj.construct
    rw [List.map_map, l]
    simp only [Function.comp_def]
    generalize RectilinearObj.validate (F32 := F32) (F64 := F64) _ = V
    cases V with
    | error e => rfl
    | ok u =>
      change Except.ok (RectilinearRef.load m h') = _
      rw [l]
      rfl
  · intro m hm
    obtain ⟨m', h', e, l, s, n, f⟩ := RectilinearRef.new_spec np kind grids vals h hg hv
    rw [e] at hm ⊢
    cases hV : (RectilinearRef.load m' h').validate with
    | error e' => rw [hV] at hm; cases hm
    | ok u => rw [hV] at hm; cases hm; exact ⟨s, n, f⟩

/-! ### Evaluation -/

/-- C108: `eval` on memory: if `out` can be borrowed, the array returned is `out` itself, or without
`out` an array in a new buffer; it holds what the model without shared memory says, and so do the
exceptions. -/
theorem C108_eval_regular (B : Borrow) (hB : B.Lawful) (np : Numpy F32 F64 X) (fma : Bool)
    (m : RegularRef) (obs : List Ref) (out : Option Ref) (h : Heap F32 F64 X) (hm : m.Sound h)
    (hobs : ∀ r ∈ obs, r.In h) (ho : ∀ o ∈ out, o.In h)
    (hall : ∀ o ∈ out, B.allowed (m.starts :: m.steps :: m.vals :: obs) o = true) :
    (m.eval B np fma obs out h).1.map (fun r => Heap.load (m.eval B np fma obs out h).2 r) =
      (m.load h).evalMem np fma (obs.map h.load) (out.map h.load) ∧
    ∀ r, (m.eval B np fma obs out h).1 = .ok r → out = some r ∨ (out = none ∧ r.buf = h.length) :=
  m.eval_refines B hB np fma obs out h hm hobs ho hall

/-- C108: the same for the classes on rectilinear grids. -/
theorem C108_eval_rectilinear (B : Borrow) (hB : B.Lawful) (np : Numpy F32 F64 X) (fma : Bool)
    (m : RectilinearRef) (obs : List Ref) (out : Option Ref) (h : Heap F32 F64 X) (hm : m.Sound h)
    (hobs : ∀ r ∈ obs, r.In h) (ho : ∀ o ∈ out, o.In h)
    (hall : ∀ o ∈ out, B.allowed (m.grids ++ m.vals :: obs) o = true) :
    (m.eval B np fma obs out h).1.map (fun r => Heap.load (m.eval B np fma obs out h).2 r) =
      (m.load h).evalMem np fma (obs.map h.load) (out.map h.load) ∧
    ∀ r, (m.eval B np fma obs out h).1 = .ok r → out = some r ∨ (out = none ∧ r.buf = h.length) :=
  m.eval_refines B hB np fma obs out h hm hobs ho hall

/-- C108: whether `eval` returns or raises, no element of any buffer changes but those of `out`. -/
theorem C108_frame_regular (B : Borrow) (np : Numpy F32 F64 X) (fma : Bool) (m : RegularRef)
    (obs : List Ref) (out : Option Ref) (h : Heap F32 F64 X) (ho : ∀ o ∈ out, o.In h) :
    Heap.SameExcept out.toList h (m.eval B np fma obs out h).2 :=
  m.eval_same B np fma obs out h ho

/-- C108: the same for the classes on rectilinear grids. -/
theorem C108_frame_rectilinear (B : Borrow) (np : Numpy F32 F64 X) (fma : Bool) (m : RectilinearRef)
    (obs : List Ref) (out : Option Ref) (h : Heap F32 F64 X) (ho : ∀ o ∈ out, o.In h) :
    Heap.SameExcept out.toList h (m.eval B np fma obs out h).2 :=
  m.eval_same B np fma obs out h ho

/-- C108: the inputs survive: whatever `out` is and whether `eval` returns or raises, the observations
and the arrays of the object hold afterwards what they held before. -/
theorem C108_inputs_regular (B : Borrow) (hB : B.Lawful) (np : Numpy F32 F64 X) (fma : Bool)
    (m : RegularRef) (obs : List Ref) (out : Option Ref) (h : Heap F32 F64 X) (hm : m.Sound h)
    (hobs : ∀ r ∈ obs, r.In h) (ho : ∀ o ∈ out, o.In h) :
    (∀ r ∈ obs, (Heap.load (m.eval B np fma obs out h).2 r).contents = (h.load r).contents) ∧
    m.load (m.eval B np fma obs out h).2 = m.load h ∧ m.Sound (m.eval B np fma obs out h).2 := by
  have key : ∀ r ∈ m.starts :: m.steps :: m.vals :: obs, r.buf < h.length →
      (Heap.load (m.eval B np fma obs out h).2 r).contents = (h.load r).contents ∧
      (r.Field h → r.Field (m.eval B np fma obs out h).2) := by
    intro r hr hb
    rcases m.eval_frame B np fma obs out h ho with ⟨e, h', he, p, -⟩ | ⟨ha, hf⟩
    · rw [he]
      exact ⟨by rw [load_of_prefix p hb], fun F => F.mono p⟩
    · obtain ⟨c, -, i, k, x⟩ := hf.contents hb fun o hoo hbo q hq => by
        have hoo' : o ∈ out := by simpa using hoo
        exact hB.disjoint _ o (ha o hoo') r hr hbo q hq
      exact ⟨c, fun F => ⟨i F.1, k F.2.1, x F.2.2⟩⟩
  refine ⟨fun r hr => (key r (by simp [hr]) (hobs r hr).1).1, ?_, ?_⟩
  · unfold RegularRef.load Heap.arr
    rw [(key m.starts (by simp) hm.1.1.1).1, (key m.steps (by simp) hm.2.1.1.1).1,
      (key m.vals (by simp) hm.2.2.1.1).1]
  · exact ⟨(key m.starts (by simp) hm.1.1.1).2 hm.1, (key m.steps (by simp) hm.2.1.1.1).2 hm.2.1,
      (key m.vals (by simp) hm.2.2.1.1).2 hm.2.2⟩

/-- C108: the same for the classes on rectilinear grids. -/
theorem C108_inputs_rectilinear (B : Borrow) (hB : B.Lawful) (np : Numpy F32 F64 X) (fma : Bool)
    (m : RectilinearRef) (obs : List Ref) (out : Option Ref) (h : Heap F32 F64 X) (hm : m.Sound h)
    (hobs : ∀ r ∈ obs, r.In h) (ho : ∀ o ∈ out, o.In h) :
    (∀ r ∈ obs, (Heap.load (m.eval B np fma obs out h).2 r).contents = (h.load r).contents) ∧
    m.load (m.eval B np fma obs out h).2 = m.load h ∧ m.Sound (m.eval B np fma obs out h).2 := by
  have key : ∀ r ∈ m.grids ++ m.vals :: obs, r.buf < h.length →
      (Heap.load (m.eval B np fma obs out h).2 r).contents = (h.load r).contents ∧
      (r.Field h → r.Field (m.eval B np fma obs out h).2) := by
    intro r hr hb
    rcases m.eval_frame B np fma obs out h ho with ⟨e, h', he, p, -⟩ | ⟨ha, hf⟩
    · rw [he]
      exact ⟨by rw [load_of_prefix p hb], fun F => F.mono p⟩
    · obtain ⟨c, -, i, k, x⟩ := hf.contents hb fun o hoo hbo q hq => by
        have hoo' : o ∈ out := by simpa using hoo
        exact hB.disjoint _ o (ha o hoo') r hr hbo q hq
      exact ⟨c, fun F => ⟨i F.1, k F.2.1, x F.2.2⟩⟩
  refine ⟨fun r hr => (key r (by simp [hr]) (hobs r hr).1).1, ?_, ?_⟩
  · unfold RectilinearRef.load Heap.arr
    rw [(key m.vals (by simp) hm.2.1.1).1]
    congr 1
    refine List.map_congr_left fun g hg => ?_
    rw [(key g (by simp [hg]) (hm.1 g hg).1.1).1]
  · exact ⟨fun g hg => (key g (by simp [hg]) (hm.1 g hg).1.1).2 (hm.1 g hg),
      (key m.vals (by simp) hm.2.1.1).2 hm.2⟩

/-- C108: evaluation in place is refused: if `out` is read-only or has an element in common with an
observation array or with an array of the object, `eval` raises and nothing at all is written. -/
theorem C108_refused_regular (B : Borrow) (hB : B.Lawful) (np : Numpy F32 F64 X) (fma : Bool)
    (m : RegularRef) (obs : List Ref) (o : Ref) (h : Heap F32 F64 X) (ho : o.In h)
    (hover : o.writeable = false ∨ ∃ r ∈ m.starts :: m.steps :: m.vals :: obs, r.buf = o.buf ∧
      ∃ p ∈ r.positions, p ∈ o.positions) :
    ∃ e, m.eval B np fma obs (some o) h = (.error e, h) := by
  rcases m.eval_frame B np fma obs (some o) h (by rintro _ ⟨rfl⟩; exact ho) with
    ⟨e, h', he, p, hn⟩ | ⟨ha, hf⟩
  · exact ⟨e, by rw [he, hn (by simp)]⟩
  · have ha := ha o rfl
    rcases hover with hw | ⟨r, hr, hb, p, hp, hpo⟩
    · rw [hB.writeable _ _ ha] at hw
      cases hw
    · exact absurd hpo (hB.disjoint _ _ ha r hr hb p hp)

/-- C108: the same for the classes on rectilinear grids. -/
theorem C108_refused_rectilinear (B : Borrow) (hB : B.Lawful) (np : Numpy F32 F64 X) (fma : Bool)
    (m : RectilinearRef) (obs : List Ref) (o : Ref) (h : Heap F32 F64 X) (ho : o.In h)
    (hover : o.writeable = false ∨ ∃ r ∈ m.grids ++ m.vals :: obs, r.buf = o.buf ∧
      ∃ p ∈ r.positions, p ∈ o.positions) :
    ∃ e, m.eval B np fma obs (some o) h = (.error e, h) := by
  rcases m.eval_frame B np fma obs (some o) h (by rintro _ ⟨rfl⟩; exact ho) with
    ⟨e, h', he, p, hn⟩ | ⟨ha, hf⟩
  · exact ⟨e, by rw [he, hn (by simp)]⟩
  · have ha := ha o rfl
    rcases hover with hw | ⟨r, hr, hb, p, hp, hpo⟩
    · rw [hB.writeable _ _ ha] at hw
      cases hw
    · exact absurd hpo (hB.disjoint _ _ ha r hr hb p hp)

/-! ### The function `interpn` -/

/-- C108: whether `interpn` returns or raises, no element of any buffer changes but those of `out`; an
array that has no element in common with `out` keeps its contents. -/
theorem C108_frame_interpn (B : Borrow) (np : Numpy F32 F64 X) (nx : NumpyX X) (fma : Bool)
    (obs grids : List Ref) (vals : Ref) (method : String) (out : Option Ref)
    (lin assumeRegular checkB : Bool) (atol : F64) (h : Heap F32 F64 X) (ho : ∀ o ∈ out, o.In h) :
    Heap.SameExcept out.toList h
      (heapInterpn B np nx fma obs grids vals method out lin assumeRegular checkB atol h).2 ∧
    ∀ r : Ref, r.buf < h.length →
      (∀ o ∈ out, r.buf = o.buf → ∀ p ∈ r.positions, p ∉ o.positions) →
      (Heap.load (heapInterpn B np nx fma obs grids vals method out lin assumeRegular checkB atol h).2
        r).contents = (h.load r).contents := by
  have hf := interpn_frame B np nx fma obs grids vals method out lin assumeRegular checkB atol h ho
  exact ⟨hf, fun r hr hd => (hf.contents hr fun o hoo => hd o (by simpa using hoo)).1⟩

/-- C108: with an `out` that is writeable and in a buffer of its own, or with none, `interpn` returns
what the model without shared memory says, exceptions included; the array returned is in the buffer of
`out` or in a new one. -/
theorem C108_interpn (B : Borrow) (hB : B.Lawful) (np : Numpy F32 F64 X) (nx : NumpyX X) (fma : Bool)
    (obs grids : List Ref) (vals : Ref) (method : String) (out : Option Ref)
    (lin assumeRegular checkB : Bool) (atol : F64) (h : Heap F32 F64 X) (ho : ∀ o ∈ out, o.In h)
    (hobs : ∀ r ∈ obs, r.In h) (hgrids : ∀ r ∈ grids, r.In h) (hvals : vals.In h)
    (hw : ∀ o ∈ out, o.writeable = true)
    (sep : ∀ r ∈ vals :: (obs ++ grids), ∀ o ∈ out, r.buf ≠ o.buf) :
    (heapInterpn B np nx fma obs grids vals method out lin assumeRegular checkB atol h).1.map
        (fun p => (p.1, Heap.load
          (heapInterpn B np nx fma obs grids vals method out lin assumeRegular checkB atol h).2 p.2)) =
      memInterpn np nx fma (obs.map h.load) (grids.map h.load) (h.load vals) method (out.map h.load) lin
        assumeRegular checkB atol ∧
    ∀ p, (heapInterpn B np nx fma obs grids vals method out lin assumeRegular checkB atol h).1 = .ok p →
      h.length ≤ p.2.buf ∨ ∃ o ∈ out, p.2.buf = o.buf :=
  interpn_refines B hB np nx fma obs grids vals method out lin assumeRegular checkB atol h ho hobs hgrids
    hvals hw sep

/-- C108: `interpn` never writes into an `out` of two or more elements: it raises `ValueError`, and
memory is as before. -/
theorem C108_interpn_ambiguous (B : Borrow) (np : Numpy F32 F64 X) (nx : NumpyX X) (fma : Bool)
    (obs grids : List Ref) (vals : Ref) (method : String) (o : Ref)
    (lin assumeRegular checkB : Bool) (atol : F64) (h : Heap F32 F64 X) (ho : o.In h)
    (h2 : 2 ≤ o.shape.prod) :
    heapInterpn B np nx fma obs grids vals method (some o) lin assumeRegular checkB atol h =
      (.error (.valueError "The truth value of an array is ambiguous"), h) := by
  have hsz := contents_size _ ho.2
  rw [load_shape] at hsz
  have ht : (h.load o).contents.truth np nx =
      .error (.valueError "The truth value of an array is ambiguous") := by
    cases hc : (h.load o).contents with
    | f32 d =>
      rw [hc] at hsz
      match d, hsz with
      | [], hsz => simp [NpArray.size] at hsz; omega
      | [v], hsz => simp [NpArray.size] at hsz; omega
      | v :: w :: d, _ => rfl
    | f64 d =>
      rw [hc] at hsz
      match d, hsz with
      | [], hsz => simp [NpArray.size] at hsz; omega
      | [v], hsz => simp [NpArray.size] at hsz; omega
      | v :: w :: d, _ => rfl
    | other d =>
      rw [hc] at hsz
      match d, hsz with
      | [], hsz => simp [NpArray.size] at hsz; omega
      | [v], hsz => simp [NpArray.size] at hsz; omega
      | v :: w :: d, _ => rfl
  unfold heapInterpn heapOutOr
  simp only
  refine pyM_bind_error ?_
  rw [pyM_read_bind, pyM_ofExcept_bind, ht]

/-! ### Programs -/

/-- C108: an object on a regular grid is fixed when it is made. Let a program make it, then do what it
likes — overwrite the arrays it was made from, make and evaluate objects, call `interpn`, catch
exceptions — except ask for writes to the buffers of this object. Then `eval` gives what the object made
from the contents at the time of `new` gives. -/
theorem C108_isolated_regular (B : Borrow) (hB : B.Lawful) (np : Numpy F32 F64 X) (nx : NumpyX X)
    (fma : Bool) (kind : ClassKind) (dims : List Int) (starts steps vals : Ref) (h h1 h2 : Heap F32 F64 X)
    (hs : starts.In h) (hp : steps.In h) (hv : vals.In h) (m : RegularRef)
    (hnew : RegularRef.new np kind dims starts steps vals h = (.ok m, h1))
    (ops : List (PyOp F32 F64 X)) (hops : PyOp.ValidAll B np nx fma h1 ops)
    (havoid : ∀ op ∈ ops, ∀ b ∈ op.targets, b ∉ m.bufs)
    (hrun : PyOp.runAll B np nx fma h1 ops = h2)
    (obs : List Ref) (out : Option Ref) (hobs : ∀ r ∈ obs, r.In h2) (ho : ∀ o ∈ out, o.In h2)
    (hall : ∀ o ∈ out, B.allowed (m.starts :: m.steps :: m.vals :: obs) o = true) :
    ∃ obj, RegularObj.new np kind dims (h.load starts).contents (h.load steps).contents
        (h.load vals).contents = .ok obj ∧ m.load h2 = obj ∧
      (m.eval B np fma obs out h2).1.map (fun r => Heap.load (m.eval B np fma obs out h2).2 r) =
        obj.evalMem np fma (obs.map h2.load) (out.map h2.load) := by
  obtain ⟨-, hn, hm⟩ := C108_new_regular np kind dims starts steps vals h hs hp hv
  rw [hnew] at hn hm
  obtain ⟨sound, -, -⟩ := hm m rfl
  have same : ∀ r ∈ [m.starts, m.steps, m.vals], r.Field h1 →
      r.Field h2 ∧ Heap.arr h2 r = Heap.arr h1 r := by
    intro r hr F
    refine F.congr ?_
    rw [← hrun]
    refine PyOp.runAll_get B np nx fma ops h1 hops F.1.1 fun op hop ht => havoid op hop _ ht ?_
    simp only [List.mem_cons, List.not_mem_nil, or_false] at hr
    rcases hr with rfl | rfl | rfl <;> simp [RegularRef.bufs]
  obtain ⟨F1, a1⟩ := same m.starts (by simp) sound.1
  obtain ⟨F2, a2⟩ := same m.steps (by simp) sound.2.1
  obtain ⟨F3, a3⟩ := same m.vals (by simp) sound.2.2
  have el : m.load h2 = m.load h1 := by
    unfold RegularRef.load
    rw [a1, a2, a3]
  refine ⟨m.load h1, hn.symm, el, ?_⟩
  rw [← el]
  exact (C108_eval_regular B hB np fma m obs out h2 ⟨F1, F2, F3⟩ hobs ho hall).1

/-- C108: the same for objects on rectilinear grids. -/
theorem C108_isolated_rectilinear (B : Borrow) (hB : B.Lawful) (np : Numpy F32 F64 X) (nx : NumpyX X)
    (fma : Bool) (kind : ClassKind) (grids : List Ref) (vals : Ref) (h h1 h2 : Heap F32 F64 X)
    (hg : ∀ g ∈ grids, g.In h) (hv : vals.In h) (m : RectilinearRef)
    (hnew : RectilinearRef.new np kind grids vals h = (.ok m, h1))
    (ops : List (PyOp F32 F64 X)) (hops : PyOp.ValidAll B np nx fma h1 ops)
    (havoid : ∀ op ∈ ops, ∀ b ∈ op.targets, b ∉ m.bufs)
    (hrun : PyOp.runAll B np nx fma h1 ops = h2)
    (obs : List Ref) (out : Option Ref) (hobs : ∀ r ∈ obs, r.In h2) (ho : ∀ o ∈ out, o.In h2)
    (hall : ∀ o ∈ out, B.allowed (m.grids ++ m.vals :: obs) o = true) :
    ∃ obj, RectilinearObj.new np kind (grids.map fun g => (h.load g).contents) (h.load vals).contents =
        .ok obj ∧ m.load h2 = obj ∧
      (m.eval B np fma obs out h2).1.map (fun r => Heap.load (m.eval B np fma obs out h2).2 r) =
        obj.evalMem np fma (obs.map h2.load) (out.map h2.load) := by
  obtain ⟨-, hn, hm⟩ := C108_new_rectilinear np kind grids vals h hg hv
  rw [hnew] at hn hm
  obtain ⟨sound, -, -⟩ := hm m rfl
  have same : ∀ r ∈ m.vals :: m.grids, r.Field h1 → r.Field h2 ∧ Heap.arr h2 r = Heap.arr h1 r := by
    intro r hr F
    refine F.congr ?_
    rw [← hrun]
    refine PyOp.runAll_get B np nx fma ops h1 hops F.1.1 fun op hop ht => havoid op hop _ ht ?_
    simp only [RectilinearRef.bufs, ← List.map_cons]
    exact List.mem_map_of_mem hr
  obtain ⟨F2, a2⟩ := same m.vals (by simp) sound.2
  have el : m.load h2 = m.load h1 := by
    unfold RectilinearRef.load
    rw [a2]
    congr 1
    exact List.map_congr_left fun g hg' => (same g (by simp [hg']) (sound.1 g hg')).2
  refine ⟨m.load h1, hn.symm, el, ?_⟩
  rw [← el]
  exact (C108_eval_rectilinear B hB np fma m obs out h2
    ⟨fun g hg' => (same g (by simp [hg']) (sound.1 g hg')).1, F2⟩ hobs ho hall).1

/-! ### Concrete cases -/

/-- A borrow check as assumed exists. -/
theorem exactBorrow_lawful : exactBorrow.Lawful := by
  refine ⟨fun rs out h => ?_, fun rs out h r hr hb p hp => ?_, fun rs out hw hs => ?_⟩
  · simp only [exactBorrow, Bool.and_eq_true] at h
    exact h.1
  · simp only [exactBorrow, Bool.and_eq_true, List.all_eq_true] at h
    have := h.2 r hr
    simp only [hb, bne_self_eq_false, Bool.false_or, List.all_eq_true] at this
    simpa using this p hp
  · simp only [exactBorrow, Bool.and_eq_true, List.all_eq_true]
    refine ⟨hw, fun r hr => ?_⟩
    simp [hs r hr]

section
attribute [local instance] ratOps

private abbrev V (b off n : Nat) : Ref := ⟨b, off, [n], [1], true⟩

/-- Starts, steps, values, and a buffer of numbers. -/
private abbrev exHeap : Heap ℚ ℚ Int := [.f64 [0], .f64 [1], .f64 [1, 2, 4], .f64 [1/2, 3/2, 7, 8]]

private theorem in_of_check {h : Heap ℚ ℚ Int} {b off n : Nat} {d : List ℚ} (hd : h[b]? = some (.f64 d))
    (hc : ((Strided.positionsFrom off [n] [1]).all fun p =>
      decide (0 ≤ p) && decide (p < d.length)) = true) : (V b off n).In h := by
  refine ⟨(List.getElem?_eq_some_iff.1 hd).1, ?_⟩
  unfold Heap.load
  simp only [hd]
  rw [List.all_eq_true] at hc
  exact ⟨rfl, fun p hp => by simpa using hc p hp⟩

private abbrev exMade : RegularRef := ⟨.multilinear, [3], V 5 0 1, V 7 0 1, V 9 0 3⟩

/-- The hypotheses of `C108_new_regular` hold, and `new` succeeds: the fields are in the buffers 5, 7
and 9. -/
example : (V 0 0 1).In exHeap ∧ (V 1 0 1).In exHeap ∧ (V 2 0 3).In exHeap ∧
    (RegularRef.new exNumpy .multilinear [3] (V 0 0 1) (V 1 0 1) (V 2 0 3) exHeap) =
      (.ok exMade, exHeap ++ [.f64 [0], .f64 [0], .f64 [1], .f64 [1], .f64 [1, 2, 4], .f64 [1, 2, 4]]) :=
  ⟨in_of_check (d := [0]) rfl (by decide +kernel), in_of_check (d := [1]) rfl (by decide +kernel),
    in_of_check (d := [1, 2, 4]) rfl (by decide +kernel), by decide +kernel⟩

/-- `C108_isolated_regular`: make an interpolator, overwrite the values it was made from, evaluate into
elements 2 and 3 of the buffer whose elements 0 and 1 are the observations. -/
example :
    let h1 := (RegularRef.new exNumpy .multilinear [3] (V 0 0 1) (V 1 0 1) (V 2 0 3) exHeap).2
    let h2 := PyOp.runAll exactBorrow exNumpy exNumpyX true h1 [.assign 2 (.f64 [9, 9, 9]), .assign 0 (.f64 [5])]
    h2.take 4 = [.f64 [5], .f64 [1], .f64 [9, 9, 9], .f64 [1/2, 3/2, 7, 8]] ∧
    exMade.bufs = [5, 7, 9] ∧
    exactBorrow.allowed (exMade.starts :: exMade.steps :: exMade.vals :: [V 3 0 2]) (V 3 2 2) = true ∧
    (exMade.eval exactBorrow exNumpy true [V 3 0 2] (some (V 3 2 2)) h2).1 = .ok (V 3 2 2) ∧
    (exMade.eval exactBorrow exNumpy true [V 3 0 2] (some (V 3 2 2)) h2).2.take 4 =
      [.f64 [5], .f64 [1], .f64 [9, 9, 9], .f64 [1/2, 3/2, 3/2, 3]] := by decide +kernel

/-- `C108_refused_regular`: in place, and with one element in common; the arrays could be evaluated with
another `out`. -/
example :
    let h1 := (RegularRef.new exNumpy .multilinear [3] (V 0 0 1) (V 1 0 1) (V 2 0 3) exHeap).2
    exMade.eval exactBorrow exNumpy true [V 3 0 2] (some (V 3 0 2)) h1 =
      (.error (.valueError "borrow"), h1) ∧
    exMade.eval exactBorrow exNumpy true [V 3 0 2] (some (V 3 1 2)) h1 =
      (.error (.valueError "borrow"), h1) ∧
    exMade.eval exactBorrow exNumpy true [V 3 0 2] (some { V 3 2 2 with writeable := false }) h1 =
      (.error (.valueError "borrow"), h1) ∧
    (exMade.eval exactBorrow exNumpy true [V 3 0 2] none h1).1 =
      .ok ⟨10, 0, [2], [1], true⟩ := by decide +kernel

/-- `C108_frame_rectilinear`, `C108_inputs_rectilinear`, `C108_eval_rectilinear`: one call that raises,
since the second observation array is shorter, and one that writes elements 1 and 2 of a buffer. -/
example :
    let m : RectilinearRef := ⟨.nearest, [V 0 0 2, V 1 0 2], V 2 0 4⟩
    let h : Heap ℚ ℚ Int := [.f64 [0, 1], .f64 [0, 2], .f64 [1, 2, 3, 4], .f64 [1/4, 1], .f64 [1/2, 2],
      .f64 [7, 0, 0, 8]]
    m.eval exactBorrow exNumpy true [V 3 0 2, V 4 0 1] (some (V 5 1 2)) h =
      (.error (.assertionError "Dimension mismatch"), h) ∧
    m.eval exactBorrow exNumpy true [V 3 0 2, V 4 0 2] (some (V 5 1 2)) h =
      (.ok (V 5 1 2), [.f64 [0, 1], .f64 [0, 2], .f64 [1, 2, 3, 4], .f64 [1/4, 1], .f64 [1/2, 2],
        .f64 [7, 1, 4, 8]]) := by decide +kernel

/-- `C108_new_rectilinear`, `C108_isolated_rectilinear`. -/
example :
    let h : Heap ℚ ℚ Int := [.f64 [0, 1, 3], .f64 [1, 2, 4], .f64 [1/2, 2]]
    let r := RectilinearRef.new exNumpy .multilinear [V 0 0 3] (V 1 0 3) h
    let m : RectilinearRef := ⟨.multilinear, [V 4 0 3], V 6 0 3⟩
    let h2 := PyOp.runAll exactBorrow exNumpy exNumpyX true r.2 [.assign 0 (.f64 [7, 8, 9])]
    r.1 = .ok m ∧ (m.eval exactBorrow exNumpy true [V 2 0 2] none h2).1.map
      (Heap.load (m.eval exactBorrow exNumpy true [V 2 0 2] none h2).2) =
      .ok (.f64 ⟨[3/2, 3], 0, [2], [1]⟩) := by decide +kernel

/-- `C108_interpn`: without `out`, and into one element that is not zero; `C108_interpn_ambiguous`. -/
example :
    let h : Heap ℚ ℚ Int := [.f64 [0, 1, 2], .f64 [1, 2, 4], .f64 [1/2, 3/2], .f64 [5, 7, 6]]
    let f := fun (obs : Ref) (out : Option Ref) =>
      heapInterpn exactBorrow exNumpy exNumpyX true [obs] [V 0 0 3] (V 1 0 3) "linear" out true false
        false (1/10) h
    (f (V 2 0 2) none).1.map (fun p => Heap.load (f (V 2 0 2) none).2 p.2) =
      .ok (.f64 ⟨[3/2, 3], 0, [2], [1]⟩) ∧
    (f (V 2 0 1) (some (V 3 1 1))).2.take 4 =
      [.f64 [0, 1, 2], .f64 [1, 2, 4], .f64 [1/2, 3/2], .f64 [5, 3/2, 6]] ∧
    f (V 2 0 2) (some (V 3 1 2)) =
      (.error (.valueError "The truth value of an array is ambiguous"), h) := by decide +kernel

end

end Interpn
