import Verif.Spec.JsonDoc
import Verif.Lemmas.JsonText

/-! Reading a document in any layout (C131). -/

set_option autoImplicit false

namespace Interpn
namespace JsonDoc
open JsonText

theorem Spaces.isSpace {w : List Char} (h : Spaces w) : ∀ c ∈ w, JsonText.isSpace c = true := by
  intro c hc
  rcases h c hc with rfl | rfl | rfl | rfl <;> decide

theorem skipSpace_append {w : List Char} (h : Spaces w) (r : List Char) :
    skipSpace (w ++ r) = skipSpace r := by
  induction w with
  | nil => rfl
  | cons c w ih =>
    have h1 := h.isSpace c List.mem_cons_self
    have ih := ih fun c hc => h c (List.mem_cons_of_mem _ hc)
    show List.dropWhile JsonText.isSpace (c :: (w ++ r)) = _
    rw [List.dropWhile_cons_of_pos h1]
    exact ih

theorem skipSpace_cons {c : Char} (h : JsonText.isSpace c = false) (r : List Char) :
    skipSpace (c :: r) = c :: r := by
  show List.dropWhile JsonText.isSpace (c :: r) = _
  rw [List.dropWhile_cons_of_neg (by rw [h]; decide)]

theorem skipSpace_spaces {w : List Char} (h : Spaces w) : skipSpace w = [] := by
  have := skipSpace_append h []
  rw [List.append_nil] at this
  exact this

/-- What follows a value. -/
def Follow (r : List Char) : Prop :=
  r = [] ∨ ∃ c t, r = c :: t ∧ (JsonText.isSpace c = true ∨ c = ',' ∨ c = ']' ∨ c = '}')

theorem follow_append {w : List Char} (h : Spaces w) {r : List Char} (hr : Follow r) :
    Follow (w ++ r) := by
  cases w with
  | nil => exact hr
  | cons c w => exact Or.inr ⟨c, _, rfl, Or.inl (h.isSpace c List.mem_cons_self)⟩

theorem Follow.noDigit {r : List Char} (h : Follow r) : NoDigit r := by
  rcases h with rfl | ⟨c, t, rfl, h⟩
  · intro c t e; cases e
  · intro c' t' e
    injection e with e1 e2
    subst e1
    rcases h with h | rfl | rfl | rfl
    · unfold JsonText.isSpace at h
      simp only [Bool.or_eq_true, decide_eq_true_eq] at h
      rcases h with ((rfl | rfl) | rfl) | rfl <;> decide
    all_goals decide

theorem Follow.noFloat {r : List Char} (h : Follow r) :
    ∀ c t, r = c :: t → ¬(c = '.' ∨ c = 'e' ∨ c = 'E') := by
  rcases h with rfl | ⟨c, t, rfl, h⟩
  · intro c t e; cases e
  · intro c' t' e
    injection e with e1 e2
    subst e1
    rcases h with h | rfl | rfl | rfl
    · unfold JsonText.isSpace at h
      simp only [Bool.or_eq_true, decide_eq_true_eq] at h
      rcases h with ((rfl | rfl) | rfl) | rfl <;> decide
    all_goals decide

theorem parseStr_text {s : List Char} (h : Unescaped s) (r : List Char) :
    parseStr (s ++ '"' :: r) = some (s, r) := by
  induction s with
  | nil => rfl
  | cons c s ih =>
    have hc := h c List.mem_cons_self
    have ih := ih fun c hc => h c (List.mem_cons_of_mem _ hc)
    show parseStr (c :: (s ++ '"' :: r)) = _
    rw [parseStr, if_neg hc.1, if_neg (by rintro (h | h); exacts [hc.2.1 h, absurd h (not_lt.2 hc.2.2)]),
      ih]
    rfl

theorem digits_head {n : Nat} (h : n ≠ 0) :
    ∃ d l, (Nat.digits 10 n).reverse = d :: l ∧ d ≠ 0 ∧ ∀ x ∈ d :: l, x < 10 := by
  have hne : (Nat.digits 10 n).reverse ≠ [] := by
    rw [Ne, List.reverse_eq_nil_iff, Nat.digits_eq_nil_iff_eq_zero]; exact h
  obtain ⟨d, l, hl⟩ := List.exists_cons_of_ne_nil hne
  refine ⟨d, l, hl, ?_, ?_⟩
  · have h1 := Nat.getLast_digit_ne_zero 10 h
    have h2 : (Nat.digits 10 n).getLast (Nat.digits_ne_nil_iff_ne_zero.2 h) = d := by
      have : Nat.digits 10 n = l.reverse ++ [d] := by
        rw [← List.reverse_reverse (Nat.digits 10 n), hl, List.reverse_cons]
      simp only [this, List.getLast_append_singleton]
    rwa [h2] at h1
  · intro x hx
    rw [← hl] at hx
    exact Nat.digits_lt_base (by norm_num) (List.mem_reverse.1 hx)

/-- Digits without leading zeros. -/
def GoodDigits (ds : List Nat) : Prop :=
  (∀ d ∈ ds, d < 10) ∧ ds ≠ [] ∧ (ds.head? = some 0 → ds = [0])

theorem parseNat_text {ds : List Nat} (h : GoodDigits ds) {r : List Char} (hr : Follow r) :
    parseNat (digitsText ds ++ r) = some (natOf ds, r) := by
  have hs : scanInt (digitsText ds ++ r) = some (ds, r) := by
    obtain ⟨h1, h2, h3⟩ := h
    obtain ⟨d, l, rfl⟩ := List.exists_cons_of_ne_nil h2
    by_cases h0 : d = 0
    · subst h0
      have : l = [] := by have := h3 rfl; injection this
      subst this; rfl
    · exact scanInt_text h1 h0 hr.noDigit
  rw [parseNat, hs]
  cases r with
  | nil => rfl
  | cons c t =>
    show (if _ then _ else _) = _
    rw [if_neg (hr.noFloat c t rfl)]

theorem digitsText_head {ds : List Nat} (h : GoodDigits ds) :
    ∃ d t, digitsText ds = digitChar d :: t ∧ d < 10 := by
  obtain ⟨d, l, rfl⟩ := List.exists_cons_of_ne_nil h.2.1
  exact ⟨d, digitsText l, rfl, h.1 d List.mem_cons_self⟩

theorem natText_good (n : Nat) : ∃ ds, GoodDigits ds ∧ natText n = digitsText ds ∧ natOf ds = n := by
  by_cases h : n = 0
  · subst h
    exact ⟨[0], ⟨by decide, by decide, fun _ => rfl⟩, rfl, rfl⟩
  · obtain ⟨d, l, hl, hd, hlt⟩ := digits_head h
    refine ⟨d :: l, ⟨hlt, List.cons_ne_nil _ _, ?_⟩, ?_, ?_⟩
    · intro e; injection e with e; exact absurd e hd
    · rw [natText, if_neg h, hl]
    · rw [← hl]; exact natOf_digits n

theorem digitChar_getD {d : Nat} (h : d < 10) : "0123456789".toList.getD d ' ' = digitChar d := by
  interval_cases d <;> decide

theorem IntText.digits {z : Int} {cs : List Char} (h : IntText z cs) : ∃ ds, GoodDigits ds ∧
    natOf ds = z.natAbs ∧ cs = if z < 0 then '-' :: digitsText ds else digitsText ds := by
  obtain ⟨ds, h1, h2, h3, h4, rfl⟩ := h
  refine ⟨ds, ⟨h1, h2, h3⟩, h4, ?_⟩
  have : (ds.map fun d => "0123456789".toList.getD d ' ') = digitsText ds :=
    List.map_congr_left fun d hd => digitChar_getD (h1 d hd)
  rw [this]
  by_cases h : z < 0
  · rw [if_pos h, if_pos h]; rfl
  · rw [if_neg h, if_neg h]; rfl

theorem intText_good (z : Int) : IntText z (intText z) := by
  obtain ⟨ds, ⟨h1, h2, h3⟩, h4, h5⟩ := natText_good z.natAbs
  refine ⟨ds, h1, h2, h3, h5, ?_⟩
  have : (ds.map fun d => "0123456789".toList.getD d ' ') = digitsText ds :=
    List.map_congr_left fun d hd => digitChar_getD (h1 d hd)
  rw [this, intText, h4]
  by_cases h : z < 0
  · rw [if_pos h, if_pos h]; rfl
  · rw [if_neg h, if_neg h]; rfl

theorem parseInt_text {z : Int} {cs : List Char} (h : IntText z cs) {r : List Char} (hr : Follow r) :
    parseInt (cs ++ r) = some (z, r) := by
  obtain ⟨ds, hg, hn, rfl⟩ := h.digits
  by_cases h : z < 0
  · rw [if_pos h]
    show Option.map _ (parseNat (digitsText ds ++ r)) = _
    rw [parseNat_text hg hr, hn]
    show some (-(z.natAbs : Int), r) = _
    congr 2; omega
  · rw [if_neg h, parseInt]
    obtain ⟨d, t, hd, hlt⟩ := digitsText_head hg
    have : dropPrefix? ['-'] (digitsText ds ++ r) = none := by
      rw [hd]
      show (if '-' = digitChar d then _ else _) = _
      rw [if_neg (digitChar_ne hlt).1.symm]
    rw [this]
    show Option.map _ (parseNat (digitsText ds ++ r)) = _
    rw [parseNat_text hg hr, hn]
    show some ((z.natAbs : Int), r) = _
    congr 2; omega

theorem digitChar_head {d : Nat} (h : d < 10) :
    digitChar d ≠ '"' ∧ digitChar d ≠ '[' ∧ digitChar d ≠ '{' ∧ digitChar d ≠ 't' ∧
      digitChar d ≠ 'f' ∧ digitChar d ≠ ']' ∧ digitChar d ≠ '}' := by
  interval_cases d <;> decide

/-- The first character of a whole number. -/
theorem intText_head {z : Int} {cs : List Char} (h : IntText z cs) : ∃ c t, cs = c :: t ∧ c ≠ '"' ∧
    c ≠ '[' ∧ c ≠ '{' ∧ c ≠ 't' ∧ c ≠ 'f' ∧ c ≠ ']' ∧ c ≠ '}' ∧ JsonText.isSpace c = false := by
  obtain ⟨ds, hg, -, rfl⟩ := h.digits
  by_cases h : z < 0
  · rw [if_pos h]
    exact ⟨'-', _, rfl, by decide⟩
  · rw [if_neg h]
    obtain ⟨d, t, hd, hlt⟩ := digitsText_head hg
    obtain ⟨h1, h2, h3, h4, h5, h6, h7⟩ := digitChar_head hlt
    exact ⟨_, t, hd, h1, h2, h3, h4, h5, h6, h7, (digitChar_ne hlt).2.2.2.2⟩

theorem parseAtom_int {z : Int} {cs : List Char} (h : IntText z cs) {r : List Char} (hr : Follow r) :
    parseAtom (cs ++ r) = some (.int z, r) := by
  obtain ⟨c, t, hc, -, -, -, h1, h2, -⟩ := intText_head h
  have e1 : dropPrefix? (boolText true) (cs ++ r) = none := by
    rw [hc]
    show (if 't' = c then _ else _) = _
    rw [if_neg h1.symm]
  have e2 : dropPrefix? (boolText false) (cs ++ r) = none := by
    rw [hc]
    show (if 'f' = c then _ else _) = _
    rw [if_neg h2.symm]
  rw [parseAtom, e1]
  dsimp only
  rw [e2]
  dsimp only
  rw [parseInt_text h hr]
  rfl

theorem Writes.head {v : Value} {cs : List Char} (h : Writes v cs) :
    ∃ c t, cs = c :: t ∧ JsonText.isSpace c = false ∧ c ≠ ']' ∧ c ≠ '}' := by
  cases h with
  | str s _ => exact ⟨_, _, rfl, by decide⟩
  | int z cs hz =>
    obtain ⟨c, t, hc, -, -, -, -, -, h1, h2, h3⟩ := intText_head hz
    exact ⟨c, t, hc, h3, h1, h2⟩
  | tt => exact ⟨_, _, rfl, by decide⟩
  | ff => exact ⟨_, _, rfl, by decide⟩
  | arrNil w _ => exact ⟨_, _, rfl, by decide⟩
  | arr l w cs _ _ => exact ⟨_, _, rfl, by decide⟩
  | objNil w _ => exact ⟨_, _, rfl, by decide⟩
  | obj fs w cs _ _ => exact ⟨_, _, rfl, by decide⟩

theorem WritesElems.head {l : List Value} {cs : List Char} (h : WritesElems l cs) :
    ∃ c t, cs = c :: t ∧ JsonText.isSpace c = false ∧ c ≠ ']' := by
  cases h with
  | last v cs w hv _ =>
    obtain ⟨c, t, rfl, h1, h2, -⟩ := hv.head
    exact ⟨c, _, rfl, h1, h2⟩
  | cons v l cs w w' ds hv _ _ _ =>
    obtain ⟨c, t, rfl, h1, h2, -⟩ := hv.head
    exact ⟨c, _, rfl, h1, h2⟩

theorem WritesFields.head {fs : List (List Char × Value)} {cs : List Char} (h : WritesFields fs cs) :
    ∃ t, cs = '"' :: t := by
  cases h <;> exact ⟨_, rfl⟩

theorem skipSpace_head {w : List Char} (h : Spaces w) {cs : List Char}
    (hc : ∃ c t, cs = c :: t ∧ JsonText.isSpace c = false) (r : List Char) :
    skipSpace (w ++ (cs ++ r)) = cs ++ r := by
  obtain ⟨c, t, rfl, hc⟩ := hc
  rw [skipSpace_append h]
  exact skipSpace_cons hc _

theorem parseFields_last {n : Nat} {k r r1 r2 r3 r4 : List Char} {v : Value}
    (h1 : parseStr r = some (k, r1)) (h2 : skipSpace r1 = ':' :: r2)
    (h3 : parseValue n (skipSpace r2) = some (v, r3)) (h4 : skipSpace r3 = '}' :: r4) :
    parseFields (n + 1) ('"' :: r) = some ([(k, v)], r4) := by
  simp only [parseFields, h1, h2, h3, h4]

theorem parseFields_cons {n : Nat} {k r r1 r2 r3 r4 : List Char} {v : Value}
    (h1 : parseStr r = some (k, r1)) (h2 : skipSpace r1 = ':' :: r2)
    (h3 : parseValue n (skipSpace r2) = some (v, r3)) (h4 : skipSpace r3 = ',' :: r4) :
    parseFields (n + 1) ('"' :: r) =
      (parseFields n (skipSpace r4)).map fun p => ((k, v) :: p.1, p.2) := by
  simp only [parseFields, h1, h2, h3, h4]

/-- Reading what is written. -/
theorem parse_writes (n : Nat) :
    (∀ v cs r, Writes v cs → Follow r → cs.length < n → parseValue n (cs ++ r) = some (v, r)) ∧
    (∀ l cs r, WritesElems l cs → cs.length < n → parseElems n (cs ++ r) = some (l, r)) ∧
    (∀ fs cs r, WritesFields fs cs → cs.length < n → parseFields n (cs ++ r) = some (fs, r)) := by
  induction n with
  | zero => exact ⟨fun _ _ _ _ _ h => absurd h (Nat.not_lt_zero _),
      fun _ _ _ _ h => absurd h (Nat.not_lt_zero _), fun _ _ _ _ h => absurd h (Nat.not_lt_zero _)⟩
  | succ n ih =>
    obtain ⟨ihv, ihe, ihf⟩ := ih
    refine ⟨?_, ?_, ?_⟩
    · intro v cs r h hr hn
      cases h with
      | str s hs =>
        show Option.map _ (parseStr ((s ++ ['"']) ++ r)) = _
        rw [List.append_assoc, List.singleton_append, parseStr_text hs]
        rfl
      | int z cs hz =>
        obtain ⟨c, t, hc, h1, h2, h3, -⟩ := intText_head hz
        rw [← parseAtom_int hz hr, hc]
        show parseValue (n + 1) (c :: (t ++ r)) = parseAtom (c :: (t ++ r))
        rw [parseValue, if_neg h1, if_neg h2, if_neg h3]
      | tt => rfl
      | ff => rfl
      | arrNil w hw =>
        show parseValue (n + 1) ('[' :: ((w ++ [']']) ++ r)) = _
        rw [parseValue, if_neg (by decide), if_pos rfl, List.append_assoc, skipSpace_append hw,
          List.singleton_append, skipSpace_cons (by decide)]
        rfl
      | arr l w cs hw hl =>
        obtain ⟨c, t, rfl, h1, h2⟩ := hl.head
        have hlen : (c :: t).length < n := by
          rw [List.length_cons, List.length_append] at hn; omega
        have e := ihe l (c :: t) r hl hlen
        show parseValue (n + 1) ('[' :: ((w ++ c :: t) ++ r)) = _
        rw [parseValue, if_neg (by decide), if_pos rfl, List.append_assoc, skipSpace_append hw,
          List.cons_append, skipSpace_cons h1]
        rw [List.cons_append] at e
        split
        · rename_i r' heq
          injection heq with e1 _
          exact absurd e1 h2
        · rw [e]; rfl
      | objNil w hw =>
        show parseValue (n + 1) ('{' :: ((w ++ ['}']) ++ r)) = _
        rw [parseValue, if_neg (by decide), if_neg (by decide), if_pos rfl, List.append_assoc,
          skipSpace_append hw, List.singleton_append, skipSpace_cons (by decide)]
        rfl
      | obj fs w cs hw hl =>
        obtain ⟨t, rfl⟩ := hl.head
        have hlen : ('"' :: t).length < n := by
          rw [List.length_cons, List.length_append] at hn; omega
        have e := ihf fs ('"' :: t) r hl hlen
        show parseValue (n + 1) ('{' :: ((w ++ '"' :: t) ++ r)) = _
        rw [parseValue, if_neg (by decide), if_neg (by decide), if_pos rfl, List.append_assoc,
          skipSpace_append hw, List.cons_append, skipSpace_cons (by decide)]
        rw [List.cons_append] at e
        split
        · rename_i r' heq
          injection heq with e1 _
          exact absurd e1 (by decide)
        · rw [e]; rfl
    · intro l cs r h hn
      cases h with
      | last v cs w hv hw =>
        have hlen : cs.length < n := by
          simp only [List.length_append, List.length_cons, List.length_nil] at hn; omega
        have hf : Follow ((w ++ [']']) ++ r) := by
          rw [List.append_assoc]
          exact follow_append hw (Or.inr ⟨']', _, rfl, by decide⟩)
        rw [List.append_assoc, parseElems, ihv v cs _ hv hf hlen]
        dsimp only
        rw [List.append_assoc, skipSpace_append hw, List.singleton_append, skipSpace_cons (by decide)]
        rfl
      | cons v l cs w w' ds hv hw hw' hl =>
        have hlen : cs.length < n ∧ ds.length < n := by
          simp only [List.length_append, List.length_cons] at hn; omega
        have hf : Follow ((w ++ ',' :: (w' ++ ds)) ++ r) := by
          rw [List.append_assoc]
          exact follow_append hw (Or.inr ⟨',', _, rfl, by decide⟩)
        obtain ⟨c, t, hc, h1, -⟩ := hl.head
        rw [List.append_assoc, parseElems, ihv v cs _ hv hf hlen.1]
        dsimp only
        rw [List.append_assoc, skipSpace_append hw, List.cons_append, skipSpace_cons (by decide)]
        show Option.map _ (parseElems n (skipSpace ((w' ++ ds) ++ r))) = _
        rw [List.append_assoc, skipSpace_head hw' ⟨c, t, hc, h1⟩, ihe l ds r hl hlen.2]
        rfl
    · intro fs cs r h hn
      cases h with
      | last k v w w' cs w'' hk hw hw' hv hw'' =>
        have hlen : cs.length < n := by
          simp only [List.length_append, List.length_cons] at hn; omega
        have hf : Follow (w'' ++ '}' :: r) :=
          follow_append hw'' (Or.inr ⟨'}', _, rfl, by decide⟩)
        obtain ⟨c, t, hc, h1, -⟩ := hv.head
        have eq : '"' :: (k ++ '"' :: (w ++ ':' :: (w' ++ (cs ++ (w'' ++ ['}']))))) ++ r =
            '"' :: (k ++ '"' :: (w ++ ':' :: (w' ++ (cs ++ (w'' ++ '}' :: r))))) := by
          simp only [List.cons_append, List.append_assoc, List.nil_append]
        rw [eq]
        refine parseFields_last (parseStr_text hk _) (r2 := w' ++ (cs ++ (w'' ++ '}' :: r))) ?_
          (v := v) (r3 := w'' ++ '}' :: r) ?_ ?_
        · rw [skipSpace_append hw, skipSpace_cons (by decide)]
        · rw [skipSpace_head hw' ⟨c, t, hc, h1⟩, ihv v cs _ hv hf hlen]
        · rw [skipSpace_append hw'', skipSpace_cons (by decide)]
      | cons k v fs w w' cs w'' u ds hk hw hw' hv hw'' hu hl =>
        have hlen : cs.length < n ∧ ds.length < n := by
          simp only [List.length_append, List.length_cons] at hn; omega
        have hf : Follow (w'' ++ ',' :: (u ++ (ds ++ r))) :=
          follow_append hw'' (Or.inr ⟨',', _, rfl, by decide⟩)
        obtain ⟨c, t, hc, h1, -⟩ := hv.head
        obtain ⟨t', ht'⟩ := hl.head
        have eq : '"' :: (k ++ '"' :: (w ++ ':' :: (w' ++ (cs ++ (w'' ++ ',' :: (u ++ ds)))))) ++ r =
            '"' :: (k ++ '"' :: (w ++ ':' :: (w' ++ (cs ++ (w'' ++ ',' :: (u ++ (ds ++ r))))))) := by
          simp only [List.cons_append, List.append_assoc]
        rw [eq, parseFields_cons (parseStr_text hk _)
          (r2 := w' ++ (cs ++ (w'' ++ ',' :: (u ++ (ds ++ r)))))
          (by rw [skipSpace_append hw, skipSpace_cons (by decide)])
          (v := v) (r3 := w'' ++ ',' :: (u ++ (ds ++ r)))
          (by rw [skipSpace_head hw' ⟨c, t, hc, h1⟩, ihv v cs _ hv hf hlen.1])
          (r4 := u ++ (ds ++ r)) (by rw [skipSpace_append hw'', skipSpace_cons (by decide)]),
          skipSpace_head hu ⟨'"', t', ht', by decide⟩, ihf fs ds r hl hlen.2]
        rfl

/-- Reading a document. -/
theorem parse_document {v : Value} {w body w' : List Char} (hw : Spaces w) (h : Writes v body)
    (hw' : Spaces w') : parse (w ++ (body ++ w')) = some v := by
  obtain ⟨c, t, hc, h1, -⟩ := h.head
  have hf : Follow w' := by
    have := follow_append hw' (Or.inl rfl : Follow [])
    rwa [List.append_nil] at this
  rw [parse, skipSpace_head hw ⟨c, t, hc, h1⟩,
    (parse_writes _).1 v body w' h hf (by simp only [List.length_append]; omega)]
  dsimp only
  rw [if_pos (skipSpace_spaces hw')]

/-! ### The compact text -/

mutual

/-- All strings of a value stand for themselves. -/
def Plain : Value → Prop
  | .str s => Unescaped s
  | .int _ => True
  | .bool _ => True
  | .arr l => PlainElems l
  | .obj fs => PlainFields fs

def PlainElems : List Value → Prop
  | [] => True
  | v :: l => Plain v ∧ PlainElems l

def PlainFields : List (List Char × Value) → Prop
  | [] => True
  | (k, v) :: l => Unescaped k ∧ Plain v ∧ PlainFields l

end

theorem spaces_nil : Spaces [] := fun _ h => by cases h

mutual

theorem text_writes : ∀ v : Value, Plain v → Writes v (text v)
  | .str s, h => by rw [Plain] at h; rw [text]; exact Writes.str s h
  | .int z, _ => by rw [text]; exact Writes.int z _ (intText_good z)
  | .bool true, _ => by rw [text]; exact Writes.tt
  | .bool false, _ => by rw [text]; exact Writes.ff
  | .arr l, h => by
    rw [Plain] at h; rw [text]
    by_cases hl : l = []
    · rw [hl, elemsText]; exact Writes.arrNil [] spaces_nil
    · exact Writes.arr l [] _ spaces_nil (elemsText_writes l h hl)
  | .obj fs, h => by
    rw [Plain] at h; rw [text]
    by_cases hl : fs = []
    · rw [hl, fieldsText]; exact Writes.objNil [] spaces_nil
    · exact Writes.obj fs [] _ spaces_nil (fieldsText_writes fs h hl)

theorem elemsText_writes : ∀ l : List Value, PlainElems l → l ≠ [] → WritesElems l (elemsText l)
  | [], _, h => absurd rfl h
  | [v], h, _ => by
    rw [PlainElems] at h; rw [elemsText]
    exact WritesElems.last v _ [] (text_writes v h.1) spaces_nil
  | v :: u :: l, h, _ => by
    rw [PlainElems] at h; rw [elemsText]
    exact WritesElems.cons v (u :: l) _ [] [] _ (text_writes v h.1) spaces_nil spaces_nil
      (elemsText_writes (u :: l) h.2 (List.cons_ne_nil _ _))

theorem fieldsText_writes : ∀ fs : List (List Char × Value), PlainFields fs → fs ≠ [] →
    WritesFields fs (fieldsText fs)
  | [], _, h => absurd rfl h
  | [(k, v)], h, _ => by
    rw [PlainFields] at h; rw [fieldsText]
    have := WritesFields.last k v [] [] _ [] h.1 spaces_nil spaces_nil (text_writes v h.2.1) spaces_nil
    have eq : strText k ++ ':' :: (text v ++ ['}']) =
        '"' :: (k ++ '"' :: ([] ++ ':' :: ([] ++ (text v ++ ([] ++ ['}']))))) := by
      simp [strText]
    rw [eq]; exact this
  | (k, v) :: g :: l, h, _ => by
    rw [PlainFields] at h; rw [fieldsText]
    have := WritesFields.cons k v (g :: l) [] [] _ [] [] _ h.1 spaces_nil spaces_nil
      (text_writes v h.2.1) spaces_nil spaces_nil
      (fieldsText_writes (g :: l) h.2.2 (List.cons_ne_nil _ _))
    have eq : strText k ++ ':' :: (text v ++ ',' :: fieldsText (g :: l)) =
        '"' :: (k ++ '"' :: ([] ++ ':' :: ([] ++ (text v ++ ([] ++ ',' :: ([] ++
          fieldsText (g :: l))))))) := by
      simp [strText]
    rw [eq]; exact this

end

/-! ### Fields in any order -/

/-- The keys. -/
abbrev keys (fs : List (List Char × Value)) : List (List Char) := fs.map Prod.fst

theorem field_none {k : List Char} {fs : List (List Char × Value)} (h : k ∉ keys fs) :
    field? k fs = none := by
  induction fs with
  | nil => rfl
  | cons f fs ih =>
    obtain ⟨k', v⟩ := f
    have h1 : k ∉ keys fs := fun h' => h (List.mem_cons_of_mem _ h')
    have h2 : k' ≠ k := fun e => h (by rw [← e]; exact List.mem_cons_self)
    rw [field?, ih h1]
    dsimp only
    rw [if_neg h2]

theorem field_mem {k : List Char} {v : Value} {fs : List (List Char × Value)} (hn : (keys fs).Nodup)
    (h : (k, v) ∈ fs) : field? k fs = some v := by
  induction fs with
  | nil => cases h
  | cons f fs ih =>
    obtain ⟨k', v'⟩ := f
    have hn' : k' ∉ keys fs ∧ (keys fs).Nodup := List.nodup_cons.1 hn
    rcases List.mem_cons.1 h with e | e
    · injection e with e1 e2
      subst e1; subst e2
      rw [field?, field_none hn'.1]
      dsimp only
      rw [if_pos rfl]
    · rw [field?, ih hn'.2 e]

/-- What is left of an object after its fields were reordered. -/
theorem Reordered.obj_elim {fs : List (List Char × Value)} {v' : Value} (hn : (keys fs).Nodup)
    (h : Reordered (.obj fs) v') : ∃ fs', v' = .obj fs' ∧ (∀ k, k ∈ keys fs' ↔ k ∈ keys fs) ∧
      ∀ k v, (k, v) ∈ fs → ∃ u, field? k fs' = some u ∧ Reordered v u := by
  cases h with
  | refl => exact ⟨fs, rfl, fun _ => Iff.rfl, fun k v hkv => ⟨v, field_mem hn hkv, Reordered.refl v⟩⟩
  | obj ks vs vs' fs' hlen hvs hp =>
    have hlen' : ks.length = vs'.length := hlen.trans hvs.length_eq
    have hk : keys (ks.zip vs) = ks := List.map_fst_zip hlen.le
    have hk' : keys (ks.zip vs') = ks := List.map_fst_zip hlen'.le
    have hperm : ks.Perm (keys fs') := by
      have := hp.map Prod.fst
      rwa [show List.map Prod.fst (ks.zip vs') = ks from hk'] at this
    rw [hk] at hn
    refine ⟨fs', rfl, fun k => by rw [hk]; exact hperm.mem_iff.symm, ?_⟩
    intro k v hkv
    obtain ⟨i, hi, e⟩ := List.mem_iff_getElem.1 hkv
    rw [List.length_zip] at hi
    have hi1 : i < ks.length := by omega
    have hi2 : i < vs.length := by omega
    have hi3 : i < vs'.length := by omega
    rw [List.getElem_zip] at e
    injection e with e1 e2
    refine ⟨vs'[i], field_mem (hperm.nodup_iff.1 hn) ?_, ?_⟩
    · refine hp.mem_iff.1 (List.mem_iff_getElem.2 ⟨i, by rw [List.length_zip]; omega, ?_⟩)
      rw [List.getElem_zip, e1]
    · rw [← e2]
      exact hvs.get hi2 hi3

theorem Reordered.arr_elim {l : List Value} {v' : Value} (h : Reordered (.arr l) v') :
    ∃ l', v' = .arr l' ∧ List.Forall₂ Reordered l l' := by
  cases h with
  | refl => exact ⟨l, rfl, List.forall₂_same.2 fun v _ => Reordered.refl v⟩
  | arr _ l' h => exact ⟨l', rfl, h⟩

theorem Reordered.str_elim {s : List Char} {v' : Value} (h : Reordered (.str s) v') : v' = .str s := by
  cases h; rfl

theorem Reordered.int_elim {z : Int} {v' : Value} (h : Reordered (.int z) v') : v' = .int z := by
  cases h; rfl

theorem Reordered.bool_elim {b : Bool} {v' : Value} (h : Reordered (.bool b) v') : v' = .bool b := by
  cases h; rfl

theorem asArr_doc {a : ArrJson} {v : Value} (h : Reordered (arrDoc a) v) : asArr v = some a := by
  obtain ⟨fs, rfl, hk, hf⟩ := h.obj_elim (show (keys [("data".toList, _), ("dtype".toList, _)]).Nodup by
    simp only [keys, List.map_cons, List.map_nil]; decide)
  obtain ⟨u, hu, hr⟩ := hf "data".toList _ List.mem_cons_self
  obtain ⟨u', hu', hr'⟩ := hf "dtype".toList _ (List.mem_cons_of_mem _ List.mem_cons_self)
  rw [hr.str_elim] at hu
  rw [hr'.str_elim] at hu'
  have hall : (fs.all fun f => f.1 = "data".toList || f.1 = "dtype".toList) = true := by
    rw [List.all_eq_true]
    intro f hf
    have := (hk f.1).1 (List.mem_map_of_mem hf)
    simp only [keys, List.map_cons, List.map_nil, List.mem_cons, List.not_mem_nil, or_false] at this
    simpa using this
  rw [asArr, if_pos hall, hu, hu']
  dsimp only
  rw [String.ofList_toList, String.ofList_toList]

theorem asArrs_doc {l : List ArrJson} {v : Value} (h : Reordered (.arr (l.map arrDoc)) v) :
    asArrs v = some l := by
  obtain ⟨l', rfl, hl⟩ := h.arr_elim
  show l'.mapM asArr = some l
  rw [List.forall₂_map_left_iff] at hl
  clear h
  induction hl with
  | nil => rfl
  | cons h1 _ ih => rw [List.mapM_cons, asArr_doc h1, ih]; rfl

theorem asInts_doc {l : List Int} {v : Value} (h : Reordered (.arr (l.map .int)) v) :
    asInts v = some l := by
  obtain ⟨l', rfl, hl⟩ := h.arr_elim
  show l'.mapM _ = some l
  rw [List.forall₂_map_left_iff] at hl
  clear h
  induction hl with
  | nil => rfl
  | cons h1 _ ih => rw [List.mapM_cons, h1.int_elim, ih]; rfl

end JsonDoc
end Interpn
