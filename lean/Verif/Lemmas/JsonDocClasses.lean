import Verif.Lemmas.JsonDoc

/-! The documents of the classes (C131). -/

set_option autoImplicit false

namespace Interpn
open JsonText

namespace JsonDoc

theorem unescaped_of_plain {s : List Char} (h : ∀ c ∈ s, c ∈ plain) : Unescaped s := fun c hc =>
  (show ∀ c ∈ plain, c ≠ '"' ∧ c ≠ '\\' ∧ 32 ≤ c.toNat by decide) c (h c hc)

theorem plain_arrDoc (P : Printer) (a : Arr F32 F64) : Plain (arrDoc (a.dump ieeeNumpy (json P))) := by
  have key : ∀ l : List F64, Unescaped (String.ofList (dumps P l)).toList := fun l => by
    rw [String.toList_ofList]; exact unescaped_of_plain (dumps_plain P l)
  have hk : Unescaped "data".toList ∧ Unescaped "dtype".toList ∧ Unescaped "float32".toList ∧
      Unescaped "float64".toList := by
    unfold Unescaped; decide
  cases a with
  | f32 d =>
    simp only [arrDoc, Plain, PlainFields]
    exact ⟨hk.1, key _, hk.2.1, hk.2.2.1, trivial⟩
  | f64 d =>
    simp only [arrDoc, Plain, PlainFields]
    exact ⟨hk.1, key _, hk.2.1, hk.2.2.2, trivial⟩

theorem plain_linField (kind : ClassKind) : PlainFields (linField kind) := by
  have hk : Unescaped "linearize_extrapolation".toList := by unfold Unescaped; decide
  cases kind with
  | multicubic b => simp only [linField, PlainFields, Plain]; exact ⟨hk, trivial, trivial⟩
  | multilinear => simp only [linField, PlainFields]
  | nearest => simp only [linField, PlainFields]

theorem plain_ints (l : List Int) : PlainElems (l.map .int) := by
  induction l with
  | nil => simp only [List.map_nil, PlainElems]
  | cons z l ih => simp only [List.map_cons, PlainElems, Plain]; exact ⟨trivial, ih⟩

theorem plain_arrs (P : Printer) (l : List (Arr F32 F64)) :
    PlainElems ((l.map (Arr.dump ieeeNumpy (json P))).map arrDoc) := by
  induction l with
  | nil => simp only [List.map_nil, PlainElems]
  | cons a l ih => simp only [List.map_cons, PlainElems]; exact ⟨plain_arrDoc P a, ih⟩

theorem plain_regular (P : Printer) (m : RegularObj F32 F64) :
    Plain (regularDoc (m.dump ieeeNumpy (json P))) := by
  have hk : Unescaped "dims".toList ∧ Unescaped "starts".toList ∧ Unescaped "steps".toList ∧
      Unescaped "vals".toList := by
    unfold Unescaped; decide
  simp only [regularDoc, RegularObj.dump, List.cons_append, List.nil_append, Plain, PlainFields]
  exact ⟨hk.1, plain_ints _, hk.2.1, plain_arrDoc P _, hk.2.2.1, plain_arrDoc P _, hk.2.2.2,
    plain_arrDoc P _, plain_linField _⟩

theorem plain_rectilinear (P : Printer) (m : RectilinearObj F32 F64) :
    Plain (rectilinearDoc (m.dump ieeeNumpy (json P))) := by
  have hk : Unescaped "grids".toList ∧ Unescaped "vals".toList := by
    unfold Unescaped; decide
  simp only [rectilinearDoc, RectilinearObj.dump, List.cons_append, List.nil_append, Plain, PlainFields]
  exact ⟨hk.1, plain_arrs P _, hk.2, plain_arrDoc P _, plain_linField _⟩

theorem regular_keys (j : RegularJson) : ∃ fs, regularDoc j = .obj fs ∧ (keys fs).Nodup ∧
    keys fs = regularNames ++ keys (linField j.kind) ∧
    ("dims".toList, Value.arr (j.dims.map .int)) ∈ fs ∧ ("starts".toList, arrDoc j.starts) ∈ fs ∧
    ("steps".toList, arrDoc j.steps) ∈ fs ∧ ("vals".toList, arrDoc j.vals) ∈ fs ∧
    ∀ f ∈ linField j.kind, f ∈ fs := by
  refine ⟨_, rfl, ?_, ?_, ?_, ?_, ?_, ?_, ?_⟩
  · cases j.kind <;> simp only [linField, keys, List.map_cons, List.map_nil, List.cons_append,
      List.nil_append] <;> decide
  · rw [keys, List.map_append]; rfl
  · exact List.mem_append_left _ (by simp)
  · exact List.mem_append_left _ (by simp)
  · exact List.mem_append_left _ (by simp)
  · exact List.mem_append_left _ (by simp)
  · exact fun f hf => List.mem_append_right _ hf

theorem rectilinear_keys (j : RectilinearJson) : ∃ fs, rectilinearDoc j = .obj fs ∧ (keys fs).Nodup ∧
    keys fs = rectilinearNames ++ keys (linField j.kind) ∧
    ("grids".toList, Value.arr (j.grids.map arrDoc)) ∈ fs ∧ ("vals".toList, arrDoc j.vals) ∈ fs ∧
    ∀ f ∈ linField j.kind, f ∈ fs := by
  refine ⟨_, rfl, ?_, ?_, ?_, ?_, ?_⟩
  · cases j.kind <;> simp only [linField, keys, List.map_cons, List.map_nil, List.cons_append,
      List.nil_append] <;> decide
  · rw [keys, List.map_append]; rfl
  · exact List.mem_append_left _ (by simp)
  · exact List.mem_append_left _ (by simp)
  · exact fun f hf => List.mem_append_right _ hf

/-- The class as which the fields can be read. -/
def asClass : ClassName → ClassKind → ClassKind
  | .multilinear, _ => .multilinear
  | .nearest, _ => .nearest
  | .multicubic, k => k

theorem asRegular_doc {j : RegularJson} {v : Value} (h : Reordered (regularDoc j) v) (cls : ClassName) :
    asRegular cls v = if (cls = .multicubic) = (className j.kind = .multicubic) then
      some { j with kind := asClass cls j.kind } else none := by
  obtain ⟨fs, hfs, hn, hkeys, h1, h2, h3, h4, h5⟩ := regular_keys j
  rw [hfs] at h
  obtain ⟨fs', rfl, hk, hf⟩ := h.obj_elim hn
  obtain ⟨u1, e1, r1⟩ := hf _ _ h1
  obtain ⟨u2, e2, r2⟩ := hf _ _ h2
  obtain ⟨u3, e3, r3⟩ := hf _ _ h3
  obtain ⟨u4, e4, r4⟩ := hf _ _ h4
  have hall : (className j.kind = .multicubic → cls = .multicubic) ↔
      (fs'.all fun f => allowed cls regularNames f.1) = true := by
    rw [List.all_eq_true]
    constructor
    · intro hc f hf
      have := (hk f.1).1 (List.mem_map_of_mem hf)
      rw [hkeys] at this
      rcases List.mem_append.1 this with h | h
      · rw [allowed, List.contains_iff_mem.2 h]; rfl
      · cases hkd : j.kind with
        | multicubic b =>
          rw [hkd] at h hc
          rw [hc rfl]
          have : f.1 = "linearize_extrapolation".toList := by
            simpa only [linField, keys, List.map_cons, List.map_nil, List.mem_singleton] using h
          rw [this]; decide
        | multilinear => rw [hkd] at h; cases h
        | nearest => rw [hkd] at h; cases h
    · intro hall hc
      cases hkd : j.kind with
      | multicubic b =>
        have hmem : "linearize_extrapolation".toList ∈ keys fs' := by
          rw [hk, hkeys, hkd]
          exact List.mem_append_right _ List.mem_cons_self
        obtain ⟨f, hf, hf1⟩ := List.mem_map.1 hmem
        have := hall f hf
        rw [hf1] at this
        revert this
        cases cls <;> decide
      | multilinear => rw [hkd] at hc; cases hc
      | nearest => rw [hkd] at hc; cases hc
  have hcub : cls = .multicubic → asKind cls fs' =
      if className j.kind = .multicubic then some j.kind else none := by
    rintro rfl
    cases hkd : j.kind with
    | multicubic b =>
      obtain ⟨u5, e5, r5⟩ := hf "linearize_extrapolation".toList (.bool b)
        (h5 _ (by rw [hkd]; exact List.mem_cons_self))
      rw [r5.bool_elim] at e5
      rw [asKind, e5]; rfl
    | multilinear =>
      rw [asKind, field_none (by rw [hk, hkeys, hkd]; decide)]; rfl
    | nearest =>
      rw [asKind, field_none (by rw [hk, hkeys, hkd]; decide)]; rfl
  have hread : asRegular cls (.obj fs') = if (className j.kind = .multicubic → cls = .multicubic) then
      (asKind cls fs').bind fun kind => some { j with kind := kind } else none := by
    rw [asRegular]
    by_cases hc : className j.kind = .multicubic → cls = .multicubic
    · rw [if_pos hc, if_pos (hall.1 hc), e1, e2, e3, e4]
      simp only [Option.bind_some, asInts_doc r1, asArr_doc r2, asArr_doc r3, asArr_doc r4]
      cases asKind cls fs' <;> rfl
    · rw [if_neg hc, if_neg (fun h => hc (hall.2 h))]
  rw [hread]
  cases cls with
  | multicubic =>
    rw [hcub rfl, if_pos fun _ => rfl]
    by_cases hc : className j.kind = .multicubic
    · rw [if_pos hc, if_pos (by simp [hc])]; rfl
    · rw [if_neg hc, if_neg (by simp [hc])]; rfl
  | multilinear =>
    by_cases hc : className j.kind = .multicubic
    · rw [if_neg (by simp [hc]), if_neg (by simp [hc])]
    · rw [if_pos (by simp [hc]), if_pos (by simp [hc])]; rfl
  | nearest =>
    by_cases hc : className j.kind = .multicubic
    · rw [if_neg (by simp [hc]), if_neg (by simp [hc])]
    · rw [if_pos (by simp [hc]), if_pos (by simp [hc])]; rfl

theorem asRectilinear_doc {j : RectilinearJson} {v : Value} (h : Reordered (rectilinearDoc j) v)
    (cls : ClassName) :
    asRectilinear cls v = if (cls = .multicubic) = (className j.kind = .multicubic) then
      some { j with kind := asClass cls j.kind } else none := by
  obtain ⟨fs, hfs, hn, hkeys, h1, h4, h5⟩ := rectilinear_keys j
  rw [hfs] at h
  obtain ⟨fs', rfl, hk, hf⟩ := h.obj_elim hn
  obtain ⟨u1, e1, r1⟩ := hf _ _ h1
  obtain ⟨u4, e4, r4⟩ := hf _ _ h4
  have hall : (className j.kind = .multicubic → cls = .multicubic) ↔
      (fs'.all fun f => allowed cls rectilinearNames f.1) = true := by
    rw [List.all_eq_true]
    constructor
    · intro hc f hf
      have := (hk f.1).1 (List.mem_map_of_mem hf)
      rw [hkeys] at this
      rcases List.mem_append.1 this with h | h
      · rw [allowed, List.contains_iff_mem.2 h]; rfl
      · cases hkd : j.kind with
        | multicubic b =>
          rw [hkd] at h hc
          rw [hc rfl]
          have : f.1 = "linearize_extrapolation".toList := by
            simpa only [linField, keys, List.map_cons, List.map_nil, List.mem_singleton] using h
          rw [this]; decide
        | multilinear => rw [hkd] at h; cases h
        | nearest => rw [hkd] at h; cases h
    · intro hall hc
      cases hkd : j.kind with
      | multicubic b =>
        have hmem : "linearize_extrapolation".toList ∈ keys fs' := by
          rw [hk, hkeys, hkd]
          exact List.mem_append_right _ List.mem_cons_self
        obtain ⟨f, hf, hf1⟩ := List.mem_map.1 hmem
        have := hall f hf
        rw [hf1] at this
        revert this
        cases cls <;> decide
      | multilinear => rw [hkd] at hc; cases hc
      | nearest => rw [hkd] at hc; cases hc
  have hcub : cls = .multicubic → asKind cls fs' =
      if className j.kind = .multicubic then some j.kind else none := by
    rintro rfl
    cases hkd : j.kind with
    | multicubic b =>
      obtain ⟨u5, e5, r5⟩ := hf "linearize_extrapolation".toList (.bool b)
        (h5 _ (by rw [hkd]; exact List.mem_cons_self))
      rw [r5.bool_elim] at e5
      rw [asKind, e5]; rfl
    | multilinear =>
      rw [asKind, field_none (by rw [hk, hkeys, hkd]; decide)]; rfl
    | nearest =>
      rw [asKind, field_none (by rw [hk, hkeys, hkd]; decide)]; rfl
  have hread : asRectilinear cls (.obj fs') =
      if (className j.kind = .multicubic → cls = .multicubic) then
        (asKind cls fs').bind fun kind => some { j with kind := kind } else none := by
    rw [asRectilinear]
    by_cases hc : className j.kind = .multicubic → cls = .multicubic
    · rw [if_pos hc, if_pos (hall.1 hc), e1, e4]
      simp only [Option.bind_some, asArrs_doc r1, asArr_doc r4]
      cases asKind cls fs' <;> rfl
    · rw [if_neg hc, if_neg (fun h => hc (hall.2 h))]
  rw [hread]
  cases cls with
  | multicubic =>
    rw [hcub rfl, if_pos fun _ => rfl]
    by_cases hc : className j.kind = .multicubic
    · rw [if_pos hc, if_pos (by simp [hc])]; rfl
    · rw [if_neg hc, if_neg (by simp [hc])]; rfl
  | multilinear =>
    by_cases hc : className j.kind = .multicubic
    · rw [if_neg (by simp [hc]), if_neg (by simp [hc])]
    · rw [if_pos (by simp [hc]), if_pos (by simp [hc])]; rfl
  | nearest =>
    by_cases hc : className j.kind = .multicubic
    · rw [if_neg (by simp [hc]), if_neg (by simp [hc])]
    · rw [if_pos (by simp [hc]), if_pos (by simp [hc])]; rfl

end JsonDoc

theorem RegularObj.construct_ok {kind : ClassKind} {dims : List Int} {starts steps vals : Arr F32 F64}
    {m : RegularObj F32 F64} (h : RegularObj.construct kind dims starts steps vals = .ok m) :
    m = { kind, dims, starts, steps, vals } := by
  unfold RegularObj.construct at h
  dsimp only at h
  cases hv : RegularObj.validate { kind, dims, starts, steps, vals } with
  | error e => rw [hv] at h; cases h
  | ok u => rw [hv] at h; injection h with h; exact h.symm

theorem RectilinearObj.construct_ok {kind : ClassKind} {grids : List (Arr F32 F64)}
    {vals : Arr F32 F64} {m : RectilinearObj F32 F64}
    (h : RectilinearObj.construct kind grids vals = .ok m) : m = { kind, grids, vals } := by
  unfold RectilinearObj.construct at h
  dsimp only at h
  cases hv : RectilinearObj.validate { kind, grids, vals } with
  | error e => rw [hv] at h; cases h
  | ok u => rw [hv] at h; injection h with h; exact h.symm

/-- An array is read as it was written. -/
theorem arr_load_dump (P : Printer) (a : Arr F32 F64) :
    (a.dump ieeeNumpy (json P)).load ieeeNumpy JsonDoc.reader = .ok a := by
  have hjs : ∀ l, (json P).loads ((json P).dumps l) = some l := fun l => by
    show loads (String.ofList (dumps P l)).toList = _
    rw [String.toList_ofList]
    exact loads_dumps P l
  exact (show (a.dump ieeeNumpy (json P)).load ieeeNumpy JsonDoc.reader =
    (a.dump ieeeNumpy (json P)).load ieeeNumpy (json P) from rfl).trans
    (Arr.load_dump ⟨hjs, C62_f32_round_trip⟩ a)

theorem arrs_load_dump (P : Printer) (l : List (Arr F32 F64)) :
    pyEach (ArrJson.load ieeeNumpy JsonDoc.reader) (l.map (Arr.dump ieeeNumpy (json P))) = .ok l := by
  induction l with
  | nil => rfl
  | cons a l ih =>
    rw [List.map_cons, pyEach, arr_load_dump, ih]; rfl

/-- The fields, read as those of any class. -/
theorem regular_load_dump (P : Printer) (m : RegularObj F32 F64) (kind : ClassKind) :
    RegularJson.load ieeeNumpy JsonDoc.reader { m.dump ieeeNumpy (json P) with kind := kind } =
      RegularObj.construct kind m.dims m.starts m.steps m.vals := by
  show (do
    let starts ← (m.starts.dump ieeeNumpy (json P)).load ieeeNumpy JsonDoc.reader
    let steps ← (m.steps.dump ieeeNumpy (json P)).load ieeeNumpy JsonDoc.reader
    let vals ← (m.vals.dump ieeeNumpy (json P)).load ieeeNumpy JsonDoc.reader
    RegularObj.construct kind m.dims starts steps vals) = _
  rw [arr_load_dump, arr_load_dump, arr_load_dump]; rfl

theorem rectilinear_load_dump (P : Printer) (m : RectilinearObj F32 F64) (kind : ClassKind) :
    RectilinearJson.load ieeeNumpy JsonDoc.reader { m.dump ieeeNumpy (json P) with kind := kind } =
      RectilinearObj.construct kind m.grids m.vals := by
  show (do
    let grids ← pyEach (ArrJson.load ieeeNumpy JsonDoc.reader) (m.grids.map (Arr.dump ieeeNumpy (json P)))
    let vals ← (m.vals.dump ieeeNumpy (json P)).load ieeeNumpy JsonDoc.reader
    RectilinearObj.construct kind grids vals) = _
  rw [arrs_load_dump, arr_load_dump]; rfl

end Interpn
