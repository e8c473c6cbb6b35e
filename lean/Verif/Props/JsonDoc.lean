import Verif.Lemmas.JsonDocClasses
import Verif.Lemmas.JsonDocPrefix
import Verif.Lemmas.IeeeExamples

/-! C131: the whole document of a dumped interpolator.  `model_validate_json` of any text of the document
(any white space, any order of the fields) restores the interpolator that `model_dump_json` wrote; the
class is not part of the document, only its fields are checked. -/

set_option autoImplicit false

namespace Interpn
open JsonText JsonDoc

/-- C131: what is dumped on a regular grid is a text of the document. -/
theorem C131_regular_text (P : Printer) (m : RegularObj F32 F64) :
    IsText (regularDoc (m.dump ieeeNumpy (json P))) (dumpRegular P m) :=
  ⟨_, [], dumpRegular P m, [], Reordered.refl _, spaces_nil, text_writes _ (plain_regular P m), spaces_nil,
    by rw [List.append_nil, List.nil_append]⟩

/-- C131: what is dumped on a rectilinear grid is a text of the document. -/
theorem C131_rectilinear_text (P : Printer) (m : RectilinearObj F32 F64) :
    IsText (rectilinearDoc (m.dump ieeeNumpy (json P))) (dumpRectilinear P m) :=
  ⟨_, [], dumpRectilinear P m, [], Reordered.refl _, spaces_nil, text_writes _ (plain_rectilinear P m),
    spaces_nil, by rw [List.append_nil, List.nil_append]⟩

/-- C131: on a regular grid, every text of the document, loaded by a class with the same fields, is that
class called with the fields that were dumped.  The class that dumped it is not recorded. -/
theorem C131_regular_fields (P : Printer) (m : RegularObj F32 F64) (cs : List Char)
    (hcs : IsText (regularDoc (m.dump ieeeNumpy (json P))) cs) (kind : ClassKind)
    (hkind : linField kind = linField m.kind) :
    loadRegular (className kind) cs = RegularObj.construct kind m.dims m.starts m.steps m.vals := by
  obtain ⟨v, w, body, w', hv, hw, hb, hw', rfl⟩ := hcs
  rw [loadRegular, parse_document hw hb hw', Option.bind_some, asRegular_doc hv]
  have e : (m.dump ieeeNumpy (json P)).kind = m.kind := rfl
  rw [e, ← regular_load_dump P m kind]
  revert hkind
  generalize m.kind = k
  cases k <;> cases kind <;> intro hkind <;> try rfl
  all_goals simp only [linField, List.cons.injEq, Prod.mk.injEq, Value.bool.injEq, reduceCtorEq,
    true_and, and_true] at hkind
  subst hkind; rfl

/-- C131: the same on rectilinear grids. -/
theorem C131_rectilinear_fields (P : Printer) (m : RectilinearObj F32 F64) (cs : List Char)
    (hcs : IsText (rectilinearDoc (m.dump ieeeNumpy (json P))) cs) (kind : ClassKind)
    (hkind : linField kind = linField m.kind) :
    loadRectilinear (className kind) cs = RectilinearObj.construct kind m.grids m.vals := by
  obtain ⟨v, w, body, w', hv, hw, hb, hw', rfl⟩ := hcs
  rw [loadRectilinear, parse_document hw hb hw', Option.bind_some, asRectilinear_doc hv]
  have e : (m.dump ieeeNumpy (json P)).kind = m.kind := rfl
  rw [e, ← rectilinear_load_dump P m kind]
  revert hkind
  generalize m.kind = k
  cases k <;> cases kind <;> intro hkind <;> try rfl
  all_goals simp only [linField, List.cons.injEq, Prod.mk.injEq, Value.bool.injEq, reduceCtorEq,
    true_and, and_true] at hkind
  subst hkind; rfl

/-- C131: on a regular grid, every text of the document is loaded as the interpolator that was dumped. -/
theorem C131_regular (P : Printer) (kind : ClassKind) (dims : List Int)
    (starts steps vals : Arr F32 F64) (m : RegularObj F32 F64)
    (hm : RegularObj.construct kind dims starts steps vals = .ok m) (cs : List Char)
    (hcs : IsText (regularDoc (m.dump ieeeNumpy (json P))) cs) :
    loadRegular (className kind) cs = .ok m := by
  have e := RegularObj.construct_ok hm
  have := C131_regular_fields P m cs hcs kind (by rw [e])
  rw [this, e, hm, e]

/-- C131: on a rectilinear grid, every text of the document is loaded as the interpolator that was
dumped. -/
theorem C131_rectilinear (P : Printer) (kind : ClassKind) (grids : List (Arr F32 F64))
    (vals : Arr F32 F64) (m : RectilinearObj F32 F64)
    (hm : RectilinearObj.construct kind grids vals = .ok m) (cs : List Char)
    (hcs : IsText (rectilinearDoc (m.dump ieeeNumpy (json P))) cs) :
    loadRectilinear (className kind) cs = .ok m := by
  have e := RectilinearObj.construct_ok hm
  have := C131_rectilinear_fields P m cs hcs kind (by rw [e])
  rw [this, e, hm, e]

/-- C131: in particular what was dumped is loaded. -/
theorem C131_round_trip (P : Printer) :
    (∀ kind dims starts steps vals m,
      RegularObj.construct kind dims starts steps vals = .ok m →
      loadRegular (className kind) (dumpRegular P m) = .ok m) ∧
    ∀ kind grids vals m, RectilinearObj.construct kind grids vals = .ok m →
      loadRectilinear (className kind) (dumpRectilinear P m) = .ok m :=
  ⟨fun kind dims starts steps vals m hm =>
      C131_regular P kind dims starts steps vals m hm _ (C131_regular_text P m),
    fun kind grids vals m hm => C131_rectilinear P kind grids vals m hm _ (C131_rectilinear_text P m)⟩

/-- C131: a cubic document is refused by the other classes and the other documents by the cubic class
(`linearize_extrapolation` is an unknown or a missing field). -/
theorem C131_cubic_refused (P : Printer) (cls : ClassName) :
    (∀ (m : RegularObj F32 F64) cs, IsText (regularDoc (m.dump ieeeNumpy (json P))) cs →
      ¬(cls = .multicubic ↔ className m.kind = .multicubic) →
      ∃ msg, loadRegular cls cs = .error (.validationError msg)) ∧
    ∀ (m : RectilinearObj F32 F64) cs, IsText (rectilinearDoc (m.dump ieeeNumpy (json P))) cs →
      ¬(cls = .multicubic ↔ className m.kind = .multicubic) →
      ∃ msg, loadRectilinear cls cs = .error (.validationError msg) := by
  constructor
  · rintro m cs ⟨v, w, body, w', hv, hw, hb, hw', rfl⟩ hc
    refine ⟨"", ?_⟩
    rw [loadRegular, parse_document hw hb hw', Option.bind_some, asRegular_doc hv,
      if_neg (show ¬(cls = .multicubic) = (className (m.dump ieeeNumpy (json P)).kind = .multicubic) from
        fun h => hc (iff_of_eq h))]
  · rintro m cs ⟨v, w, body, w', hv, hw, hb, hw', rfl⟩ hc
    refine ⟨"", ?_⟩
    rw [loadRectilinear, parse_document hw hb hw', Option.bind_some, asRectilinear_doc hv,
      if_neg (show ¬(cls = .multicubic) = (className (m.dump ieeeNumpy (json P)).kind = .multicubic) from
        fun h => hc (iff_of_eq h))]

/-- C131: a document with a field that the class does not have is refused, in any layout. -/
theorem C131_unknown_field (cls : ClassName) (fs : List (List Char × Value)) (w body w' : List Char)
    (hw : Spaces w) (hb : Writes (.obj fs) body) (hw' : Spaces w') (f : List Char × Value) (hf : f ∈ fs)
    (hlin : cls = .multicubic → f.1 ≠ "linearize_extrapolation".toList) :
    (f.1 ∉ ["dims".toList, "starts".toList, "steps".toList, "vals".toList] →
      ∃ msg, loadRegular cls (w ++ (body ++ w')) = .error (.validationError msg)) ∧
    (f.1 ∉ ["grids".toList, "vals".toList] →
      ∃ msg, loadRectilinear cls (w ++ (body ++ w')) = .error (.validationError msg)) := by
  have key : ∀ names : List (List Char), f.1 ∉ names → ¬(fs.all fun f => allowed cls names f.1) = true := by
    intro names hn hall
    have := List.all_eq_true.1 hall f hf
    unfold allowed at this
    simp only [Bool.or_eq_true, List.contains_iff_mem, Bool.and_eq_true, decide_eq_true_eq] at this
    rcases this with h | ⟨h1, h2⟩
    · exact hn h
    · exact hlin h1 h2
  refine ⟨fun hn => ⟨"", ?_⟩, fun hn => ⟨"", ?_⟩⟩
  · rw [loadRegular, parse_document hw hb hw', Option.bind_some, asRegular, if_neg (key regularNames hn)]
  · rw [loadRectilinear, parse_document hw hb hw', Option.bind_some, asRectilinear, if_neg (key rectilinearNames hn)]

/-- C131: a document without one of the fields of the class is refused, in any layout. -/
theorem C131_missing_field (cls : ClassName) (fs : List (List Char × Value)) (w body w' : List Char)
    (hw : Spaces w) (hb : Writes (.obj fs) body) (hw' : Spaces w') (k : List Char)
    (hk : ∀ f ∈ fs, f.1 ≠ k) :
    (k ∈ ["dims".toList, "starts".toList, "steps".toList, "vals".toList] ∨
        cls = .multicubic ∧ k = "linearize_extrapolation".toList →
      ∃ msg, loadRegular cls (w ++ (body ++ w')) = .error (.validationError msg)) ∧
    (k ∈ ["grids".toList, "vals".toList] ∨
        cls = .multicubic ∧ k = "linearize_extrapolation".toList →
      ∃ msg, loadRectilinear cls (w ++ (body ++ w')) = .error (.validationError msg)) := by
  have hnone : field? k fs = none := field_none fun h => by
    obtain ⟨f, hf, e⟩ := List.mem_map.1 h
    exact hk f hf e
  have hkind : cls = .multicubic ∧ k = "linearize_extrapolation".toList → asKind cls fs = none := by
    rintro ⟨rfl, rfl⟩
    rw [asKind, hnone]
  refine ⟨fun hn => ⟨"", ?_⟩, fun hn => ⟨"", ?_⟩⟩
  · have : asRegular cls (.obj fs) = none := by
      rw [asRegular]
      split
      · rcases hn with hn | hn
        · simp only [List.mem_cons, List.not_mem_nil, or_false] at hn
          rcases hn with rfl | rfl | rfl | rfl <;> rw [hnone] <;>
            simp only [Option.bind_none, Option.bind_eq_bind, Option.bind_fun_none]
        · rw [hkind hn]
          simp only [Option.bind_none, Option.bind_eq_bind, Option.bind_fun_none]
      · rfl
    rw [loadRegular, parse_document hw hb hw', Option.bind_some, this]
  · have : asRectilinear cls (.obj fs) = none := by
      rw [asRectilinear]
      split
      · rcases hn with hn | hn
        · simp only [List.mem_cons, List.not_mem_nil, or_false] at hn
          rcases hn with rfl | rfl <;> rw [hnone] <;>
            simp only [Option.bind_none, Option.bind_eq_bind, Option.bind_fun_none]
        · rw [hkind hn]
          simp only [Option.bind_none, Option.bind_eq_bind, Option.bind_fun_none]
      · rfl
    rw [loadRectilinear, parse_document hw hb hw', Option.bind_some, this]

/-- C131: a document with an array or an object among the entries of `dims` is refused, in any layout. -/
theorem C131_nested_dims (cls : ClassName) (fs : List (List Char × Value)) (w body w' : List Char)
    (hw : Spaces w) (hb : Writes (.obj fs) body) (hw' : Spaces w') (hn : (fs.map Prod.fst).Nodup)
    (l : List Value) (hl : ("dims".toList, Value.arr l) ∈ fs) (v : Value) (hv : v ∈ l)
    (hbad : (∃ l', v = .arr l') ∨ ∃ fs', v = .obj fs') :
    ∃ msg, loadRegular cls (w ++ (body ++ w')) = .error (.validationError msg) := by
  have hnone : asInts (.arr l) = none := by
    rw [asInts]
    clear hl
    induction l with
    | nil => cases hv
    | cons a l ih =>
      rw [List.mapM_cons]
      rcases List.mem_cons.1 hv with rfl | h
      · rcases hbad with ⟨l', rfl⟩ | ⟨fs', rfl⟩ <;> rfl
      · rw [ih h]
        simp only [Option.bind_none, Option.bind_eq_bind, Option.bind_fun_none]
  have hf : field? "dims".toList fs = some (.arr l) := field_mem hn hl
  have : asRegular cls (.obj fs) = none := by
    rw [asRegular]
    split
    · rw [hf, Option.bind_some, hnone]
      simp only [Option.bind_none, Option.bind_eq_bind]
    · rfl
  refine ⟨"", ?_⟩
  rw [loadRegular, parse_document hw hb hw', Option.bind_some, this]

/-- C131: a document of the other kind of grid is refused. -/
theorem C131_grid_kind_refused (P : Printer) (cls : ClassName) :
    (∀ (m : RegularObj F32 F64) cs, IsText (regularDoc (m.dump ieeeNumpy (json P))) cs →
      ∃ msg, loadRectilinear cls cs = .error (.validationError msg)) ∧
    ∀ (m : RectilinearObj F32 F64) cs, IsText (rectilinearDoc (m.dump ieeeNumpy (json P))) cs →
      ∃ msg, loadRegular cls cs = .error (.validationError msg) := by
  constructor
  · rintro m cs ⟨v, w, body, w', hv, hw, hb, hw', rfl⟩
    obtain ⟨fs, hfs, hn, hkeys, -⟩ := regular_keys (m.dump ieeeNumpy (json P))
    rw [hfs] at hv
    obtain ⟨fs', rfl, hk, -⟩ := hv.obj_elim hn
    refine (C131_missing_field cls fs' w body w' hw hb hw' "grids".toList ?_).2 (Or.inl (by decide))
    intro f hf e
    have := (hk f.1).1 (List.mem_map_of_mem hf)
    rw [hkeys, e] at this
    revert this
    generalize (m.dump ieeeNumpy (json P)).kind = k
    cases k <;> simp only [linField, keys, List.map_cons, List.map_nil] <;> decide
  · rintro m cs ⟨v, w, body, w', hv, hw, hb, hw', rfl⟩
    obtain ⟨fs, hfs, hn, hkeys, -⟩ := rectilinear_keys (m.dump ieeeNumpy (json P))
    rw [hfs] at hv
    obtain ⟨fs', rfl, hk, -⟩ := hv.obj_elim hn
    refine (C131_missing_field cls fs' w body w' hw hb hw' "dims".toList ?_).1 (Or.inl (by decide))
    intro f hf e
    have := (hk f.1).1 (List.mem_map_of_mem hf)
    rw [hkeys, e] at this
    revert this
    generalize (m.dump ieeeNumpy (json P)).kind = k
    cases k <;> simp only [linField, keys, List.map_cons, List.map_nil] <;> decide

/-- C131: a truncated document is refused by every class, wherever it was cut. -/
theorem C131_truncated (cls : ClassName) (fs : List (List Char × Value)) (w body : List Char)
    (hw : Spaces w) (hb : Writes (.obj fs) body) (a t : List Char) (ht : t ≠ [])
    (h : a ++ t = w ++ body) :
    (∃ msg, loadRegular cls a = .error (.validationError msg)) ∧
    ∃ msg, loadRectilinear cls a = .error (.validationError msg) := by
  have hp := parse_truncated hw hb ht h
  exact ⟨⟨"", by rw [loadRegular, hp]; rfl⟩, ⟨"", by rw [loadRectilinear, hp]; rfl⟩⟩

/-- C131: in particular every truncated dump is refused. -/
theorem C131_truncated_dump (P : Printer) (cls : ClassName) (a t : List Char) (ht : t ≠ []) :
    (∀ m, a ++ t = dumpRegular P m → ∃ msg, loadRegular cls a = .error (.validationError msg)) ∧
    ∀ m, a ++ t = dumpRectilinear P m →
      ∃ msg, loadRectilinear cls a = .error (.validationError msg) := by
  constructor
  · intro m h
    obtain ⟨fs, hfs, -⟩ := regular_keys (m.dump ieeeNumpy (json P))
    have hb := text_writes _ (plain_regular P m)
    rw [hfs] at hb
    exact (C131_truncated cls fs [] _ spaces_nil hb a t ht
      (h.trans (by rw [dumpRegular, hfs]; rfl))).1
  · intro m h
    obtain ⟨fs, hfs, -⟩ := rectilinear_keys (m.dump ieeeNumpy (json P))
    have hb := text_writes _ (plain_rectilinear P m)
    rw [hfs] at hb
    exact (C131_truncated cls fs [] _ spaces_nil hb a t ht
      (h.trans (by rw [dumpRectilinear, hfs]; rfl))).2

/-- C131: a document with anything but white space behind it (two dumps in one file) is refused. -/
theorem C131_trailing (cls : ClassName) (fs : List (List Char × Value)) (w body g : List Char)
    (hw : Spaces w) (hb : Writes (.obj fs) body) (hg : ¬Spaces g) :
    (∃ msg, loadRegular cls (w ++ (body ++ g)) = .error (.validationError msg)) ∧
    ∃ msg, loadRectilinear cls (w ++ (body ++ g)) = .error (.validationError msg) := by
  have hp := parse_trailing hw hb hg
  exact ⟨⟨"", by rw [loadRegular, hp]; rfl⟩, ⟨"", by rw [loadRectilinear, hp]; rfl⟩⟩

/-! #### Concrete cases -/

/-- A text with white space and the fields in another order. -/
private def exText : List Char :=
  ("{ \"vals\" : {\"dtype\": \"float64\", \"data\": \"[1.0, 2.5]\"},\n  \"dims\": [ 2 ]," ++
    "\"steps\":{\"data\":\"[0.5]\",\"dtype\":\"float64\"}," ++
    " \"starts\": {\"data\": \"[0.0]\", \"dtype\": \"float64\"} }\n").toList

private def exObj (kind : ClassKind) : RegularObj F32 F64 :=
  { kind, dims := [2], starts := .f64 [q64 0], steps := .f64 [q64 (1 / 2)],
    vals := .f64 [q64 1, q64 (5 / 2)] }

/-- It is loaded by the two classes that have these fields and refused by the others. -/
example : loadRegular .multilinear exText = .ok (exObj .multilinear) ∧
    loadRegular .nearest exText = .ok (exObj .nearest) ∧
    loadRegular .multicubic exText = .error (.validationError "") ∧
    loadRectilinear .multilinear exText = .error (.validationError "") := by decide +kernel

/-- Without its last brace, and twice in a row, it is refused. -/
example : loadRegular .multilinear (exText.take (exText.length - 2)) = .error (.validationError "") ∧
    loadRegular .multilinear (exText ++ exText) = .error (.validationError "") := by decide +kernel

/-- Two fields exchanged. -/
example : Reordered (.obj (["a".toList, "b".toList].zip [.int 1, .int 2]))
    (.obj [("b".toList, .int 2), ("a".toList, .int 1)]) :=
  .obj _ _ [.int 1, .int 2] _ rfl (List.forall₂_same.2 fun _ _ => .refl _) (List.Perm.swap _ _ _)

/-- The compact text of a document. -/
example : String.ofList (text (regularDoc ⟨.multicubic true, [12, -3, 0], ⟨"[0.5]", "float64"⟩,
    ⟨"[]", "float32"⟩, ⟨"[NaN]", "float64"⟩⟩)) =
    "{\"dims\":[12,-3,0],\"starts\":{\"data\":\"[0.5]\",\"dtype\":\"float64\"},\"steps\":{\"data\":\"[]\",\"dtype\":\"float32\"},\"vals\":{\"data\":\"[NaN]\",\"dtype\":\"float64\"},\"linearize_extrapolation\":true}" := by
  decide +kernel

/-- Hypotheses of `C131_nested_dims` are satisfied: `{"dims":[3,[2]]}`. -/
example : ∃ msg, loadRegular .multilinear (text (.obj [("dims".toList, .arr [.int 3, .arr [.int 2]])])) =
    .error (.validationError msg) := by
  have h := C131_nested_dims .multilinear [("dims".toList, .arr [.int 3, .arr [.int 2]])] []
    (text (.obj [("dims".toList, .arr [.int 3, .arr [.int 2]])])) [] spaces_nil
    (text_writes _ (by simp [Plain, PlainFields, PlainElems, Unescaped])) spaces_nil (by simp)
    [.int 3, .arr [.int 2]] (by simp) (.arr [.int 2]) (by simp) (Or.inl ⟨_, rfl⟩)
  simpa using h

end Interpn
