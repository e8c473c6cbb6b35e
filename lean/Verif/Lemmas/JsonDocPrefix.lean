import Verif.Lemmas.JsonDoc

/-! Truncated documents (C131): what the parser has read does not depend on the text behind it. -/

set_option autoImplicit false

namespace Interpn
namespace JsonDoc
open JsonText

theorem skipSpace_extend {cs r t : List Char} {c : Char} (h : skipSpace cs = c :: r) :
    skipSpace (cs ++ t) = c :: (r ++ t) := by
  induction cs with
  | nil => cases h
  | cons x cs ih =>
    by_cases hx : JsonText.isSpace x = true
    · have e : ∀ l, skipSpace (x :: l) = skipSpace l := fun l => List.dropWhile_cons_of_pos hx
      rw [e] at h
      rw [List.cons_append, e]
      exact ih h
    · have hx : JsonText.isSpace x = false := by simpa using hx
      rw [skipSpace_cons hx] at h
      injection h with h1 h2
      subst h1; subst h2
      exact skipSpace_cons hx _

theorem skipSpace_ne_nil {r r' : List Char} {c : Char} (h : skipSpace r = c :: r') : r ≠ [] := by
  rintro rfl; cases h

theorem parseStr_extend {cs s r t : List Char} (h : parseStr cs = some (s, r)) :
    parseStr (cs ++ t) = some (s, r ++ t) := by
  induction cs generalizing s with
  | nil => cases h
  | cons c cs ih =>
    rw [List.cons_append]
    rw [parseStr] at h ⊢
    split at h
    · rename_i hc
      rw [if_pos hc]
      injection h with h; injection h with h1 h2
      rw [← h1, ← h2]
    · rename_i hc
      rw [if_neg hc]
      split at h
      · cases h
      · rename_i hc'
        rw [if_neg hc']
        cases hp : parseStr cs with
        | none => rw [hp] at h; cases h
        | some p =>
          rw [hp] at h
          obtain ⟨s', r'⟩ := p
          simp only [Option.map_some, Option.some.injEq, Prod.mk.injEq] at h
          obtain ⟨h1, h2⟩ := h
          subst h2
          rw [ih hp, ← h1]; rfl

theorem dropPrefix_extend {p cs r t : List Char} (h : dropPrefix? p cs = some r) :
    dropPrefix? p (cs ++ t) = some (r ++ t) := by
  induction p generalizing cs with
  | nil => rw [dropPrefix?] at h; injection h with h; subst h; rfl
  | cons a p ih =>
    cases cs with
    | nil => cases h
    | cons c cs =>
      rw [dropPrefix?] at h
      rw [List.cons_append, dropPrefix?]
      split at h
      · rename_i hc; rw [if_pos hc]; exact ih h
      · cases h

theorem scanDigits_extend {cs t : List Char} (h : (scanDigits cs).2 ≠ []) :
    scanDigits (cs ++ t) = ((scanDigits cs).1, (scanDigits cs).2 ++ t) := by
  induction cs with
  | nil => exact absurd rfl h
  | cons c cs ih =>
    rw [List.cons_append]
    rw [scanDigits] at h
    rw [scanDigits, scanDigits]
    cases hd : digitVal? c with
    | none => rfl
    | some d =>
      rw [hd] at h
      dsimp only at h ⊢
      rw [ih h]

theorem scanInt_extend {cs r t : List Char} {ds : List Nat} (h : scanInt cs = some (ds, r)) (hr : r ≠ []) :
    scanInt (cs ++ t) = some (ds, r ++ t) := by
  cases cs with
  | nil => cases h
  | cons c cs =>
    rw [List.cons_append]
    rw [scanInt] at h ⊢
    cases hd : digitVal? c with
    | none => rw [hd] at h; cases h
    | some d =>
      rw [hd] at h
      cases d with
      | zero =>
        injection h with h; injection h with h1 h2
        rw [← h1, ← h2]; rfl
      | succ d =>
        injection h with h; injection h with h1 h2
        show some ((d + 1) :: (scanDigits (cs ++ t)).1, (scanDigits (cs ++ t)).2) = _
        have : (scanDigits cs).2 ≠ [] := by rw [h2]; exact hr
        rw [scanDigits_extend this, h1, h2]

theorem parseNat_extend {cs r t : List Char} {n : Nat} (h : parseNat cs = some (n, r)) (hr : r ≠ []) :
    parseNat (cs ++ t) = some (n, r ++ t) := by
  unfold parseNat at h
  cases hs : scanInt cs with
  | none => rw [hs] at h; cases h
  | some p =>
    obtain ⟨ds, r'⟩ := p
    rw [hs] at h
    cases r' with
    | nil =>
      dsimp only at h
      injection h with h; injection h with h1 h2
      exact absurd h2.symm hr
    | cons c r' =>
      dsimp only at h
      split at h
      · cases h
      · rename_i hc
        injection h with h; injection h with h1 h2
        unfold parseNat
        rw [scanInt_extend hs (List.cons_ne_nil _ _)]
        show (if _ then _ else _) = _
        rw [if_neg hc, h1, ← h2]; rfl

theorem parseNat_head {cs r : List Char} {n : Nat} (h : parseNat cs = some (n, r)) :
    ∃ c l d, cs = c :: l ∧ digitVal? c = some d := by
  unfold parseNat at h
  cases cs with
  | nil => cases h
  | cons c l =>
    cases hd : digitVal? c with
    | none => rw [scanInt, hd] at h; cases h
    | some d => exact ⟨c, l, d, rfl, hd⟩

theorem parseInt_extend {cs r t : List Char} {z : Int} (h : parseInt cs = some (z, r)) (hr : r ≠ []) :
    parseInt (cs ++ t) = some (z, r ++ t) ∧ ∃ c l, cs = c :: l ∧ c ≠ 't' ∧ c ≠ 'f' := by
  unfold parseInt at h
  cases hd : dropPrefix? ['-'] cs with
  | some r' =>
    rw [hd] at h
    dsimp only at h
    cases hp : parseNat r' with
    | none => rw [hp] at h; cases h
    | some p =>
      obtain ⟨n, r''⟩ := p
      rw [hp] at h
      simp only [Option.map_some, Option.some.injEq, Prod.mk.injEq] at h
      obtain ⟨h1, h2⟩ := h
      subst h2
      constructor
      · unfold parseInt
        rw [dropPrefix_extend hd]
        dsimp only
        rw [parseNat_extend hp hr, ← h1]; rfl
      · cases cs with
        | nil => cases hd
        | cons c l =>
          rw [dropPrefix?] at hd
          split at hd
          · rename_i hc; subst hc; exact ⟨'-', l, rfl, by decide⟩
          · cases hd
  | none =>
    rw [hd] at h
    dsimp only at h
    cases hp : parseNat cs with
    | none => rw [hp] at h; cases h
    | some p =>
      obtain ⟨n, r''⟩ := p
      rw [hp] at h
      simp only [Option.map_some, Option.some.injEq, Prod.mk.injEq] at h
      obtain ⟨h1, h2⟩ := h
      subst h2
      obtain ⟨c, l, d, rfl, hcd⟩ := parseNat_head hp
      have hne : c ≠ '-' ∧ c ≠ 't' ∧ c ≠ 'f' := by
        refine ⟨?_, ?_, ?_⟩ <;> (rintro rfl; revert hcd; simp [digitVal?])
      constructor
      · unfold parseInt
        have : dropPrefix? ['-'] (c :: l ++ t) = none := by
          rw [List.cons_append, dropPrefix?, if_neg hne.1.symm]
        rw [this]
        dsimp only
        rw [parseNat_extend hp hr, ← h1]; rfl
      · exact ⟨c, l, rfl, hne.2⟩

/-- Whether a text after the value could change the value. -/
def Closed (v : Value) (r : List Char) : Prop := r ≠ [] ∨ ∀ z, v ≠ .int z

theorem parseAtom_extend {cs r t : List Char} {v : Value} (h : parseAtom cs = some (v, r))
    (hc : Closed v r) : parseAtom (cs ++ t) = some (v, r ++ t) := by
  unfold parseAtom at h ⊢
  cases h1 : dropPrefix? (boolText true) cs with
  | some r' =>
    rw [h1] at h
    dsimp only at h
    rw [dropPrefix_extend h1]
    injection h with h; injection h with e1 e2
    rw [e1, e2]
  | none =>
    rw [h1] at h
    dsimp only at h
    cases h2 : dropPrefix? (boolText false) cs with
    | some r' =>
      rw [h2] at h
      dsimp only at h
      have h1' : dropPrefix? (boolText true) (cs ++ t) = none := by
        cases cs with
        | nil => cases h2
        | cons c l =>
          have hc : 'f' = c := by
            by_contra hne
            rw [show boolText false = 'f' :: ['a', 'l', 's', 'e'] from rfl, dropPrefix?, if_neg hne] at h2
            cases h2
          rw [← hc]; rfl
      rw [h1', dropPrefix_extend h2]
      injection h with h; injection h with e1 e2
      rw [e1, e2]
    | none =>
      rw [h2] at h
      dsimp only at h
      cases hp : parseInt cs with
      | none => rw [hp] at h; cases h
      | some p =>
        obtain ⟨z, r'⟩ := p
        rw [hp] at h
        simp only [Option.map_some, Option.some.injEq, Prod.mk.injEq] at h
        obtain ⟨e1, e2⟩ := h
        subst e1; subst e2
        have hr : r' ≠ [] := hc.resolve_right fun h => h z rfl
        obtain ⟨e, c, l, rfl, n1, n2⟩ := parseInt_extend (t := t) hp hr
        have h1' : dropPrefix? (boolText true) (c :: l ++ t) = none := by
          show (if 't' = c then _ else _) = _
          rw [if_neg n1.symm]
        have h2' : dropPrefix? (boolText false) (c :: l ++ t) = none := by
          show (if 'f' = c then _ else _) = _
          rw [if_neg n2.symm]
        rw [h1', h2']
        dsimp only
        rw [e]; rfl

theorem parseElems_nil (n : Nat) : parseElems n [] = none := by
  cases n with
  | zero => rw [parseElems]
  | succ n =>
    rw [parseElems]
    cases n with
    | zero => rw [parseValue]
    | succ n => rw [parseValue]

theorem parseFields_nil (n : Nat) : parseFields n [] = none := by
  cases n with
  | zero => rw [parseFields]
  | succ n => rw [parseFields]; intro r h; cases h

theorem parseValue_arr {n : Nat} {cs r : List Char} {v : Value} :
    parseValue (n + 1) ('[' :: cs) = some (v, r) ↔
      (skipSpace cs = ']' :: r ∧ v = .arr []) ∨
      ∃ a x l, skipSpace cs = a :: x ∧ a ≠ ']' ∧ parseElems n (a :: x) = some (l, r) ∧ v = .arr l := by
  rw [parseValue, if_neg (by decide), if_pos rfl]
  cases hs : skipSpace cs with
  | nil =>
    show Option.map _ (parseElems n []) = _ ↔ _
    rw [parseElems_nil]
    simp
  | cons a x =>
    by_cases ha : a = ']'
    · subst ha
      show some _ = some _ ↔ _
      simp only [Option.some.injEq, Prod.mk.injEq, List.cons.injEq, true_and]
      constructor
      · rintro ⟨h1, h2⟩; exact Or.inl ⟨h2, h1.symm⟩
      · rintro (⟨h1, h2⟩ | ⟨a, x', l, ⟨h1, -⟩, h2, -⟩)
        · exact ⟨h2.symm, h1⟩
        · exact absurd h1.symm h2
    · split
      · rename_i heq; injection heq with e _; exact absurd e ha
      · simp only [Option.map_eq_some_iff, Prod.mk.injEq, Prod.exists, List.cons.injEq]
        constructor
        · rintro ⟨l, r', h1, h2, h3⟩
          subst h3
          exact Or.inr ⟨a, x, l, ⟨rfl, rfl⟩, ha, h1, h2.symm⟩
        · rintro (⟨⟨h1, -⟩, -⟩ | ⟨a', x', l, ⟨h1, h2⟩, h3, h4, h5⟩)
          · exact absurd h1 ha
          · subst h1; subst h2
            exact ⟨l, r, h4, h5.symm, rfl⟩

theorem parseValue_obj {n : Nat} {cs r : List Char} {v : Value} :
    parseValue (n + 1) ('{' :: cs) = some (v, r) ↔
      (skipSpace cs = '}' :: r ∧ v = .obj []) ∨
      ∃ a x l, skipSpace cs = a :: x ∧ a ≠ '}' ∧ parseFields n (a :: x) = some (l, r) ∧ v = .obj l := by
  rw [parseValue, if_neg (by decide), if_neg (by decide), if_pos rfl]
  cases hs : skipSpace cs with
  | nil =>
    show Option.map _ (parseFields n []) = _ ↔ _
    rw [parseFields_nil]
    simp
  | cons a x =>
    by_cases ha : a = '}'
    · subst ha
      show some _ = some _ ↔ _
      simp only [Option.some.injEq, Prod.mk.injEq, List.cons.injEq, true_and]
      constructor
      · rintro ⟨h1, h2⟩; exact Or.inl ⟨h2, h1.symm⟩
      · rintro (⟨h1, h2⟩ | ⟨a, x', l, ⟨h1, -⟩, h2, -⟩)
        · exact ⟨h2.symm, h1⟩
        · exact absurd h1.symm h2
    · split
      · rename_i heq; injection heq with e _; exact absurd e ha
      · simp only [Option.map_eq_some_iff, Prod.mk.injEq, Prod.exists, List.cons.injEq]
        constructor
        · rintro ⟨l, r', h1, h2, h3⟩
          subst h3
          exact Or.inr ⟨a, x, l, ⟨rfl, rfl⟩, ha, h1, h2.symm⟩
        · rintro (⟨⟨h1, -⟩, -⟩ | ⟨a', x', l, ⟨h1, h2⟩, h3, h4, h5⟩)
          · exact absurd h1 ha
          · subst h1; subst h2
            exact ⟨l, r, h4, h5.symm, rfl⟩

theorem parseElems_iff {n : Nat} {cs r : List Char} {l : List Value} :
    parseElems (n + 1) cs = some (l, r) ↔
      ∃ v r1, parseValue n cs = some (v, r1) ∧
        ((skipSpace r1 = ']' :: r ∧ l = [v]) ∨
          ∃ r2 l', skipSpace r1 = ',' :: r2 ∧ parseElems n (skipSpace r2) = some (l', r) ∧ l = v :: l') := by
  rw [parseElems]
  cases hv : parseValue n cs with
  | none => simp
  | some p =>
    obtain ⟨v, r1⟩ := p
    simp only [Option.some.injEq, Prod.mk.injEq, ↓existsAndEq, true_and]
    split
    · rename_i r' heq
      simp only [heq, Option.some.injEq, Prod.mk.injEq, List.cons.injEq, true_and]
      constructor
      · rintro ⟨h1, h2⟩; exact Or.inl ⟨h2, h1.symm⟩
      · rintro (⟨h1, h2⟩ | ⟨_, _, ⟨h, -⟩, -⟩)
        · exact ⟨h2.symm, h1⟩
        · exact absurd h (by decide)
    · rename_i r' heq
      simp only [heq, List.cons.injEq, Option.map_eq_some_iff, Prod.mk.injEq, Prod.exists]
      constructor
      · rintro ⟨l', r'', h1, h2, h3⟩
        subst h3
        exact Or.inr ⟨r', l', ⟨trivial, rfl⟩, h1, h2.symm⟩
      · rintro (⟨⟨h, -⟩, -⟩ | ⟨r2, l', ⟨-, h1⟩, h2, h3⟩)
        · exact absurd h (by decide)
        · subst h1; exact ⟨l', r, h2, h3.symm, rfl⟩
    · rename_i h1 h2
      constructor
      · intro h; cases h
      · rintro (⟨h, -⟩ | ⟨r2, l', h, -⟩)
        · exact absurd h (h1 _)
        · exact absurd h (h2 _)

theorem parseFields_iff {n : Nat} {cs r : List Char} {l : List (List Char × Value)} :
    parseFields (n + 1) cs = some (l, r) ↔
      ∃ r0 k r1 r2 v r3, cs = '"' :: r0 ∧ parseStr r0 = some (k, r1) ∧ skipSpace r1 = ':' :: r2 ∧
        parseValue n (skipSpace r2) = some (v, r3) ∧
        ((skipSpace r3 = '}' :: r ∧ l = [(k, v)]) ∨
          ∃ r4 l', skipSpace r3 = ',' :: r4 ∧ parseFields n (skipSpace r4) = some (l', r) ∧
            l = (k, v) :: l') := by
  constructor
  · intro h
    obtain ⟨r0, rfl⟩ : ∃ r0, cs = '"' :: r0 := by
      cases cs with
      | nil => rw [parseFields_nil] at h; cases h
      | cons c r0 =>
        by_cases hc : c = '"'
        · exact ⟨r0, by rw [hc]⟩
        · rw [parseFields] at h
          · cases h
          · intro r e; injection e with e _; exact hc e
    rw [parseFields] at h
    · split at h
      · cases h
      · rename_i k r1 h1
        split at h
        · rename_i r2 h2
          split at h
          · cases h
          · rename_i v r3 h3
            refine ⟨r0, k, r1, r2, v, r3, rfl, h1, h2, h3, ?_⟩
            split at h
            · rename_i r' h4
              injection h with h; injection h with e1 e2
              subst e2
              exact Or.inl ⟨h4, e1.symm⟩
            · rename_i r' h4
              simp only [Option.map_eq_some_iff, Prod.mk.injEq, Prod.exists] at h
              obtain ⟨l', r'', h5, h6, h7⟩ := h
              subst h7
              exact Or.inr ⟨r', l', h4, h5, h6.symm⟩
            · cases h
        · cases h
  · rintro ⟨r0, k, r1, r2, v, r3, rfl, h1, h2, h3, ⟨h4, rfl⟩ | ⟨r4, l', h4, h5, rfl⟩⟩
    · exact parseFields_last h1 h2 h3 h4
    · rw [parseFields_cons h1 h2 h3 h4, h5]; rfl

/-- What the parser has read does not depend on the text behind it. -/
theorem parse_extend (t : List Char) (n : Nat) : ∀ m, n ≤ m →
    (∀ cs v r, parseValue n cs = some (v, r) → Closed v r → parseValue m (cs ++ t) = some (v, r ++ t)) ∧
    (∀ cs l r, parseElems n cs = some (l, r) → parseElems m (cs ++ t) = some (l, r ++ t)) ∧
    (∀ cs fs r, parseFields n cs = some (fs, r) → parseFields m (cs ++ t) = some (fs, r ++ t)) := by
  induction n with
  | zero =>
    intro m _
    refine ⟨fun cs v r h => ?_, fun cs v r h => ?_, fun cs v r h => ?_⟩
    · rw [parseValue] at h; cases h
    · rw [parseElems] at h; cases h
    · rw [parseFields] at h; cases h
  | succ n ih =>
    intro m hm
    obtain ⟨m, rfl⟩ : ∃ k, m = k + 1 := ⟨m - 1, by omega⟩
    obtain ⟨ihv, ihe, ihf⟩ := ih m (by omega)
    have hne : ∀ {cs : List Char}, skipSpace cs = [] → parseElems n (skipSpace cs) = none := by
      intro cs h; rw [h]; exact parseElems_nil n
    have hext : ∀ {cs : List Char}, skipSpace cs ≠ [] → skipSpace (cs ++ t) = skipSpace cs ++ t := by
      intro cs h
      obtain ⟨c, l, hl⟩ := List.exists_cons_of_ne_nil h
      rw [skipSpace_extend hl, hl]; rfl
    refine ⟨?_, ?_, ?_⟩
    · intro cs v r h hc
      cases cs with
      | nil => rw [parseValue] at h; cases h
      | cons c cs =>
        rw [List.cons_append]
        by_cases h1 : c = '"'
        · rw [parseValue, if_pos h1] at h ⊢
          cases hp : parseStr cs with
          | none => rw [hp] at h; cases h
          | some p =>
            obtain ⟨s, r'⟩ := p
            rw [hp] at h
            simp only [Option.map_some, Option.some.injEq, Prod.mk.injEq] at h
            rw [parseStr_extend hp, ← h.1, ← h.2]; rfl
        · by_cases h2 : c = '['
          · subst h2
            rw [parseValue_arr] at h ⊢
            rcases h with ⟨h, e⟩ | ⟨a, x, l, h3, h4, h5, h6⟩
            · exact Or.inl ⟨skipSpace_extend h, e⟩
            · exact Or.inr ⟨a, x ++ t, l, skipSpace_extend h3, h4, ihe _ _ _ h5, h6⟩
          · by_cases h3 : c = '{'
            · subst h3
              rw [parseValue_obj] at h ⊢
              rcases h with ⟨h, e⟩ | ⟨a, x, l, h3, h4, h5, h6⟩
              · exact Or.inl ⟨skipSpace_extend h, e⟩
              · exact Or.inr ⟨a, x ++ t, l, skipSpace_extend h3, h4, ihf _ _ _ h5, h6⟩
            · rw [parseValue, if_neg h1, if_neg h2, if_neg h3] at h ⊢
              exact parseAtom_extend h hc
    · intro cs l r h
      rw [parseElems_iff] at h ⊢
      obtain ⟨v, r1, h1, h2⟩ := h
      have hr1 : r1 ≠ [] := by
        rcases h2 with ⟨h, -⟩ | ⟨_, _, h, -⟩ <;> exact skipSpace_ne_nil h
      refine ⟨v, r1 ++ t, ihv _ _ _ h1 (Or.inl hr1), ?_⟩
      rcases h2 with ⟨h, e⟩ | ⟨r2, l', h, h', e⟩
      · exact Or.inl ⟨skipSpace_extend h, e⟩
      · refine Or.inr ⟨r2 ++ t, l', skipSpace_extend h, ?_, e⟩
        rw [hext (fun h0 => by rw [h0, parseElems_nil] at h'; cases h')]
        exact ihe _ _ _ h'
    · intro cs l r h
      rw [parseFields_iff] at h ⊢
      obtain ⟨r0, k, r1, r2, v, r3, rfl, h1, h2, h3, h4⟩ := h
      have hr3 : r3 ≠ [] := by
        rcases h4 with ⟨h, -⟩ | ⟨_, _, h, -⟩ <;> exact skipSpace_ne_nil h
      refine ⟨r0 ++ t, k, r1 ++ t, r2 ++ t, v, r3 ++ t, rfl, parseStr_extend h1, skipSpace_extend h2, ?_,
        ?_⟩
      · rw [hext (fun h0 => by rw [h0] at h3; cases n <;> (rw [parseValue] at h3; cases h3))]
        exact ihv _ _ _ h3 (Or.inl hr3)
      · rcases h4 with ⟨h, e⟩ | ⟨r4, l', h, h', e⟩
        · exact Or.inl ⟨skipSpace_extend h, e⟩
        · refine Or.inr ⟨r4 ++ t, l', skipSpace_extend h, ?_, e⟩
          rw [hext (fun h0 => by rw [h0, parseFields_nil] at h'; cases h')]
          exact ihf _ _ _ h'

/-- A text that opens an object is read as an object. -/
theorem parseValue_brace {n : Nat} {cs r : List Char} {v : Value}
    (h : parseValue n ('{' :: cs) = some (v, r)) : ∃ fs, v = .obj fs := by
  cases n with
  | zero => rw [parseValue] at h; cases h
  | succ n =>
    rcases parseValue_obj.1 h with ⟨-, e⟩ | ⟨_, _, l, -, -, -, e⟩
    · exact ⟨_, e⟩
    · exact ⟨_, e⟩

theorem Writes.brace {fs : List (List Char × Value)} {cs : List Char} (h : Writes (.obj fs) cs) :
    ∃ t, cs = '{' :: t := by
  cases h <;> exact ⟨_, rfl⟩

theorem prefix_skipSpace {w body a t : List Char} (hw : Spaces w)
    (hb : ∃ c l, body = c :: l ∧ JsonText.isSpace c = false) (h : a ++ t = w ++ body) :
    skipSpace a = [] ∨ ∃ b, skipSpace a = b ∧ b ≠ [] ∧ b ++ t = body := by
  cases hs : skipSpace a with
  | nil => exact Or.inl rfl
  | cons c l =>
    right
    refine ⟨c :: l, rfl, List.cons_ne_nil _ _, ?_⟩
    have h1 := skipSpace_extend (t := t) hs
    obtain ⟨c', l', rfl, hc'⟩ := hb
    rw [h, skipSpace_append hw, skipSpace_cons hc'] at h1
    exact h1.symm

/-- A truncated object is not a document. -/
theorem parse_truncated {fs : List (List Char × Value)} {w body a t : List Char} (hw : Spaces w)
    (hb : Writes (.obj fs) body) (ht : t ≠ []) (h : a ++ t = w ++ body) : parse a = none := by
  obtain ⟨c, l, hc, hsp, -⟩ := hb.head
  unfold parse
  rcases prefix_skipSpace hw ⟨c, l, hc, hsp⟩ h with h0 | ⟨b, e, hbne, hbt⟩
  · rw [h0, parseValue]
  · rw [e]
    cases hp : parseValue (a.length + 1) b with
    | none => rfl
    | some p =>
      exfalso
      obtain ⟨v, r⟩ := p
      obtain ⟨l', hl'⟩ := hb.brace
      obtain ⟨x, b', rfl⟩ := List.exists_cons_of_ne_nil hbne
      have hx : x = '{' := by
        rw [hl', List.cons_append] at hbt
        injection hbt
      subst hx
      obtain ⟨fs', rfl⟩ := parseValue_brace hp
      set m := max (a.length + 1) (body.length + 1) with hm
      have h1 := (parse_extend t _ m (le_max_left _ _)).1 _ _ _ hp (Or.inr fun z hz => by cases hz)
      rw [hbt] at h1
      have h2 := (parse_writes m).1 _ body [] hb (Or.inl rfl) (by omega)
      rw [List.append_nil, h1] at h2
      injection h2 with h2
      injection h2 with _ h2
      exact ht (List.append_eq_nil_iff.1 h2).2

/-- Something behind an object is an error. -/
theorem parse_trailing {fs : List (List Char × Value)} {w body g : List Char} (hw : Spaces w)
    (hb : Writes (.obj fs) body) (hg : ¬Spaces g) : parse (w ++ (body ++ g)) = none := by
  obtain ⟨c, l, hc, hsp, -⟩ := hb.head
  have h2 := (parse_writes (body.length + 1)).1 _ body [] hb (Or.inl rfl) (Nat.lt_succ_self _)
  rw [List.append_nil] at h2
  have h3 := (parse_extend g _ ((w ++ (body ++ g)).length + 1)
    (by simp only [List.length_append]; omega)).1 _ _ _ h2 (Or.inr fun z hz => by cases hz)
  rw [parse, skipSpace_head hw ⟨c, l, hc, hsp⟩, h3]
  dsimp only
  rw [List.nil_append, if_neg]
  intro h
  refine hg fun x hx => ?_
  have : JsonText.isSpace x = true := by
    by_contra hc
    have : ∀ l : List Char, x ∈ l → skipSpace l ≠ [] := by
      intro l hl
      induction l with
      | nil => cases hl
      | cons y l ih =>
        by_cases hy : JsonText.isSpace y = true
        · rw [show skipSpace (y :: l) = skipSpace l from List.dropWhile_cons_of_pos hy]
          rcases List.mem_cons.1 hl with e | e
          · rw [e] at hc; exact absurd hy hc
          · exact ih e
        · rw [skipSpace_cons (by simpa using hy)]; exact List.cons_ne_nil _ _
    exact this g hx h
  unfold JsonText.isSpace at this
  simpa [or_assoc] using this

end JsonDoc
end Interpn
