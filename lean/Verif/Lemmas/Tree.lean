import Verif.Lemmas.Layout
import Mathlib.Logic.Function.Basic

/-! The flattened vertex loop and the recursive `populate` both compute the same
value: a tree that interpolates along axis 0 first, then axis 1, and so on. -/

set_option autoImplicit false

namespace Interpn

variable {T : Type} {N FP : Nat}

/-- Interpolation tree: leaves `L c` for an offset tuple `c`, axis `d` combined by `G d`. -/
def tree (FP : Nat) (G : Nat → (Fin FP → T) → T) (L : (Nat → Nat) → T) :
    Nat → (Nat → Nat) → T
  | 0, c => L c
  | d + 1, c => G d fun p => tree FP G L d (Function.update c d p.val)

/-- Offsets of block `m` at level `j`: digits of `m` in base `FP`, shifted up by `j`. -/
def digits (FP j m k : Nat) : Nat := if k < j then 0 else m / FP ^ (k - j) % FP

theorem digits_update (hFP : 0 < FP) (j m : Nat) (p : Fin FP) :
    Function.update (digits FP (j + 1) m) j p.val = digits FP j (FP * m + p.val) := by
  funext k
  have hp := p.isLt
  by_cases hk : k = j
  · subst hk
    rw [Function.update_self]
    simp [digits, Nat.mod_eq_of_lt hp]
  · rw [Function.update_of_ne hk]
    unfold digits
    by_cases hkj : k < j
    · rw [if_pos hkj, if_pos (by omega)]
    · rw [if_neg hkj, if_neg (by omega), show k - j = (k - (j + 1)) + 1 by omega, pow_succ',
        ← Nat.div_div_eq_div_mul, Nat.mul_add_div hFP, Nat.div_eq_of_lt hp, add_zero]

/-- Value of block `m` at level `j`. -/
def blockVal (FP : Nat) (G : Nat → (Fin FP → T) → T) (L : (Nat → Nat) → T) (j m : Nat) : T :=
  tree FP G L j (digits FP j m)

theorem blockVal_succ (hFP : 0 < FP) (G : Nat → (Fin FP → T) → T) (L : (Nat → Nat) → T)
    (j m : Nat) :
    blockVal FP G L (j + 1) m = G j fun p => blockVal FP G L j (FP * m + p.val) := by
  unfold blockVal
  rw [tree]
  congr 1; funext p
  rw [digits_update hFP]

theorem tree_congr_leaf (G : Nat → (Fin FP → T) → T) (L L' : (Nat → Nat) → T)
    (h : ∀ c, L c = L' c) (d : Nat) (c : Nat → Nat) : tree FP G L d c = tree FP G L' d c := by
  have : L = L' := funext h
  rw [this]

/-- The tree only uses nodes below its level and leaves whose offsets are below `FP`. -/
theorem tree_congr (G G' : Nat → (Fin FP → T) → T) (L L' : (Nat → Nat) → T) (d : Nat)
    (c : Nat → Nat) (hG : ∀ j < d, ∀ v, G j v = G' j v)
    (hL : ∀ c', (∀ k < d, c' k < FP) → (∀ k, d ≤ k → c' k = c k) → L c' = L' c') :
    tree FP G L d c = tree FP G' L' d c := by
  induction d generalizing c with
  | zero => exact hL c (by omega) (fun k _ => rfl)
  | succ d ih =>
    rw [tree, tree, hG d (by omega)]
    congr 1; funext p
    apply ih _ (fun j hj => hG j (by omega))
    intro c' h1 h2
    apply hL c'
    · intro k hk
      by_cases hkd : k = d
      · subst hkd
        rw [h2 k le_rfl, Function.update_self]; exact p.isLt
      · exact h1 k (by omega)
    · intro k hk
      rw [h2 k (by omega), Function.update_of_ne (by omega)]

/-! ### The flattened schedule -/

theorem setStore_ok (store : Fin N → Fin FP → T) {j p : Nat} (hj : j < N) (hp : p < FP) (v : T) :
    setStore store j p v = .ok (fun j' p' => if j'.val = j then
      (if p'.val = p then v else store j' p') else store j' p') := by
  unfold setStore
  rw [aget_lt _ hj, Res.ok_bind, aset_lt _ hp, Res.ok_bind, aset_lt _ hj]
  congr 1; funext j' p'
  by_cases h : j'.val = j
  · have : j' = ⟨j, hj⟩ := Fin.ext h
    subst this; simp
  · simp [h]

theorem setLoc_ok (offset : Nat → Nat → Nat) (origin : Fin N → Nat) (i : Nat) (loc : Fin N → Nat)
    (hmax : ∀ k : Fin N, origin k + offset i k ≤ usizeMax) :
    setLoc offset origin i loc = .ok (fun k => origin k + offset i k) := by
  unfold setLoc
  rw [forRange_eq (fun j => (fun k : Fin N => if k.val < j then origin k + offset i k else loc k))]
  · congr 1; funext k; simp
  · funext k; simp
  · intro j hj
    rw [aget_lt _ hj, Res.ok_bind, uadd_ok (hmax ⟨j, hj⟩), Res.ok_bind, aset_lt _ hj]
    congr 1; funext k
    by_cases h1 : k.val = j
    · have : k = ⟨j, hj⟩ := Fin.ext h1
      subst this; simp
    · by_cases h2 : k.val < j
      · simp [h1, h2, show k.val < j + 1 by omega]
      · simp [h1, h2, show ¬ k.val < j + 1 by omega]

/-- Level `j` of `store` after `i` vertices holds the values of the current group of
completed blocks. -/
def levelInv (FP : Nat) (G : Nat → (Fin FP → T) → T) (L : (Nat → Nat) → T)
    (store : Fin N → Fin FP → T) (i : Nat) (j : Fin N) : Prop :=
  0 < i / FP ^ j.val → ∀ p : Fin FP, p.val ≤ (i / FP ^ j.val - 1) % FP →
    store j p = blockVal FP G L j (FP * ((i / FP ^ j.val - 1) / FP) + p.val)

theorem levelInv_write (hFP : 0 < FP) {G : Nat → (Fin FP → T) → T} {L : (Nat → Nat) → T}
    {store store' : Fin N → Fin FP → T} {i : Nat} {j : Fin N}
    (hinv : levelInv FP G L store i j) (hm : (i + 1) / FP ^ j.val = i / FP ^ j.val + 1)
    (hnew : ∀ p : Fin FP, p.val = (i / FP ^ j.val) % FP →
      store' j p = blockVal FP G L j (i / FP ^ j.val))
    (hold : ∀ p : Fin FP, p.val ≠ (i / FP ^ j.val) % FP → store' j p = store j p) :
    levelInv FP G L store' (i + 1) j := by
  unfold levelInv at *
  rw [hm]
  set m := i / FP ^ j.val
  intro _ p hp
  rw [Nat.add_sub_cancel] at hp ⊢
  by_cases hpm : p.val = m % FP
  · rw [hnew p hpm, hpm, Nat.div_add_mod]
  · rw [hold p hpm]
    have hlt : p.val < m % FP := by omega
    have hm0 : 0 < m := by
      rcases Nat.eq_zero_or_pos m with h | h
      · rw [h] at hlt; simp at hlt
      · exact h
    have hmod := Nat.div_add_mod m FP
    have hml := Nat.mod_lt m hFP
    have e : m - 1 = FP * (m / FP) + (m % FP - 1) := by omega
    have h1 : (m - 1) / FP = m / FP := by
      have hl2 : m % FP - 1 < FP := by omega
      rw [e, Nat.mul_add_div hFP, Nat.div_eq_of_lt hl2, add_zero]
    have h2 : (m - 1) % FP = m % FP - 1 := by
      rw [e, Nat.mul_add_mod, Nat.mod_eq_of_lt (by omega)]
    rw [hinv hm0 p (by omega), h1]

theorem flatEval_eq (zero : T) (offset : Nat → Nat → Nat) (origin dimprod : Fin N → Nat)
    (vals : List T) (node : Nat → (Fin FP → T) → Res T)
    (G : Nat → (Fin FP → T) → T) (L : (Nat → Nat) → T)
    (hN : 0 < N) (hFP : 1 < FP)
    (hoff : ∀ i k, offset i k = i / FP ^ k % FP)
    (hnode : ∀ j < N, ∀ v, node j v = .ok (G j v))
    (hleaf : ∀ c : Nat → Nat, (∀ k, c k < FP) →
      (∀ k : Fin N, origin k + c k ≤ usizeMax) ∧
      indexArr (fun k : Fin N => origin k + c k) dimprod vals = .ok (L c)) :
    flatEval FP zero offset origin dimprod vals node = .ok (tree FP G L N (fun _ => 0)) := by
  have hFP0 : 0 < FP := by omega
  have hpow : ∀ j, 0 < FP ^ j := fun j => Nat.pow_pos hFP0
  have hoffeq : ∀ i, (fun k => offset i k) = digits FP 0 i := by
    intro i; funext k; simp [digits, hoff]
  -- one vertex
  have hvertex : ∀ i, ∀ st : (Fin N → Nat) × (Fin N → Fin FP → T),
      (∀ j, levelInv FP G L st.2 i j) →
      ∃ st', (forRange N st fun j st => vertexStep offset origin dimprod vals node i j st) = .ok st'
        ∧ (∀ j, levelInv FP G L st'.2 (i + 1) j) := by
    intro i st hst
    obtain ⟨st', h, hP⟩ := forRange_inv (n := N) (init := st)
      (body := fun j st => vertexStep offset origin dimprod vals node i j st)
      (fun j st => ∀ j' : Fin N, (j'.val < j → levelInv FP G L st.2 (i + 1) j') ∧
        (j ≤ j'.val → levelInv FP G L st.2 i j'))
      (fun j' => ⟨fun h => absurd h (by omega), fun _ => hst j'⟩)
      (by
        intro j hj st hinv
        unfold vertexStep
        by_cases hj0 : j = 0
        · subst hj0
          have hc : ∀ k, digits FP 0 i k < FP := by
            intro k; simp only [digits]; split
            · exact hFP0
            · exact Nat.mod_lt _ hFP0
          obtain ⟨hmax, hidx⟩ := hleaf (digits FP 0 i) hc
          rw [← hoffeq i] at hmax hidx
          rw [if_pos rfl, setLoc_ok _ _ _ _ hmax, Res.ok_bind, hidx, Res.ok_bind,
            setStore_ok _ hj (Nat.mod_lt _ hFP0), Res.ok_bind]
          refine ⟨_, rfl, fun j' => ⟨fun hj' => ?_, fun hj' => ?_⟩⟩
          · have hz : j'.val = 0 := by omega
            apply levelInv_write hFP0 ((hinv j').2 (by omega))
            · simp [hz]
            · intro p hp
              simp only [hz, pow_zero, Nat.div_one] at hp ⊢
              simp only [hp, if_true, blockVal, tree]
              rw [hoffeq i]
            · intro p hp
              simp only [hz, pow_zero, Nat.div_one] at hp ⊢
              simp [hp]
          · have hne : j'.val ≠ 0 := by omega
            have := (hinv j').2 (by omega)
            unfold levelInv at this ⊢
            intro h0 p hp
            rw [← this h0 p hp]
            simp [hne]
        · rw [if_neg hj0]
          simp only
          by_cases hlev : (i + 1) % FP ^ j = 0
          · rw [if_pos hlev]
            have hdvd : FP ^ j ∣ i + 1 := Nat.dvd_of_mod_eq_zero hlev
            obtain ⟨m', hm'⟩ := hdvd
            have hm'pos : 0 < m' := by
              rcases Nat.eq_zero_or_pos m' with h | h
              · rw [h] at hm'; simp at hm'
              · exact h
            obtain ⟨m, rfl⟩ : ∃ m, m' = m + 1 := ⟨m' - 1, by omega⟩
            have hdiv1 : (i + 1) / FP ^ j = m + 1 := by
              rw [hm', Nat.mul_div_cancel_left _ (hpow j)]
            have hdiv0 : i / FP ^ j = m := by
              have : i = FP ^ j * m + (FP ^ j - 1) := by
                have := hpow j
                rw [mul_add, mul_one] at hm'
                omega
              rw [this, Nat.mul_add_div (hpow j), Nat.div_eq_of_lt (by have := hpow j; omega),
                add_zero]
            -- children
            have hind : j - 1 < N := by omega
            have hpj : FP ^ j = FP ^ (j - 1) * FP := by
              rw [← pow_succ]; congr 1; omega
            have hchild := (hinv ⟨j - 1, hind⟩).1 (by simp; omega)
            unfold levelInv at hchild
            have hcd : (i + 1) / FP ^ (j - 1) = FP * (m + 1) := by
              rw [hm', hpj, mul_assoc, Nat.mul_div_cancel_left _ (hpow (j - 1))]
            simp only [hcd] at hchild
            have hFm : FP * (m + 1) = FP * m + FP := by ring
            have e1 : (FP * (m + 1) - 1) % FP = FP - 1 := by
              rw [hFm, show FP * m + FP - 1 = FP * m + (FP - 1) by omega, Nat.mul_add_mod,
                Nat.mod_eq_of_lt (by omega)]
            have e2 : (FP * (m + 1) - 1) / FP = m := by
              rw [hFm, show FP * m + FP - 1 = FP * m + (FP - 1) by omega, Nat.mul_add_div hFP0,
                Nat.div_eq_of_lt (by omega), add_zero]
            rw [e1, e2] at hchild
            have hrow : st.2 ⟨j - 1, hind⟩ = fun p : Fin FP =>
                blockVal FP G L (j - 1) (FP * m + p.val) := by
              funext p
              exact hchild (Nat.mul_pos hFP0 (by omega)) p (by have := p.isLt; omega)
            rw [aget_lt _ hind, Res.ok_bind, hnode _ hind, Res.ok_bind, hrow,
              ← blockVal_succ hFP0 G L (j - 1) m, show j - 1 + 1 = j by omega,
              setStore_ok _ hj (Nat.mod_lt _ hFP0), Res.ok_bind]
            refine ⟨_, rfl, fun j' => ⟨fun hj' => ?_, fun hj' => ?_⟩⟩
            · by_cases hjj : j'.val = j
              · apply levelInv_write hFP0 ((hinv j').2 (by omega))
                · rw [hjj, hdiv1, hdiv0]
                · intro p hp
                  rw [hjj, hdiv0] at hp ⊢
                  simp only [hjj, hdiv1, Nat.add_sub_cancel, hp, if_true]
                · intro p hp
                  rw [hjj, hdiv0] at hp
                  simp only [hjj, hdiv1, Nat.add_sub_cancel, if_true, if_neg hp]
              · have := (hinv j').1 (by omega)
                unfold levelInv at this ⊢
                intro h0 p hp
                rw [← this h0 p hp]
                simp [hjj]
            · have hjj : j'.val ≠ j := by omega
              have := (hinv j').2 (by omega)
              unfold levelInv at this ⊢
              intro h0 p hp
              rw [← this h0 p hp]
              simp [hjj]
          · rw [if_neg hlev]
            refine ⟨st, rfl, fun j' => ⟨fun hj' => ?_, fun hj' => (hinv j').2 (by omega)⟩⟩
            by_cases hjj : j'.val = j
            · have := (hinv j').2 (by omega)
              unfold levelInv at this ⊢
              rw [hjj] at this ⊢
              have : (i + 1) / FP ^ j = i / FP ^ j := by
                rw [Nat.succ_div, if_neg (by rwa [Nat.dvd_iff_mod_eq_zero]), add_zero]
              rw [this]; assumption
            · exact (hinv j').1 (by omega))
    exact ⟨st', h, fun j => (hP j).1 j.isLt⟩
  obtain ⟨st, h, hP⟩ := forRange_inv (n := FP ^ N)
    (init := ((fun _ => 0 : Fin N → Nat), (fun _ _ => zero : Fin N → Fin FP → T)))
    (body := fun i st => forRange N st fun j st =>
      vertexStep offset origin dimprod vals node i j st)
    (fun i st => ∀ j, levelInv FP G L st.2 i j)
    (by intro j; unfold levelInv; simp)
    (by intro i _ st hst; exact hvertex i st hst)
  unfold flatEval
  simp only
  rw [h, Res.ok_bind, usub_ok (by omega), Res.ok_bind, aget_lt _ (by omega : N - 1 < N),
    Res.ok_bind, hnode _ (by omega)]
  have hlast := hP ⟨N - 1, by omega⟩
  unfold levelInv at hlast
  have hd : FP ^ N / FP ^ (N - 1) = FP := by
    rw [show FP ^ N = FP ^ (N - 1) * FP by rw [← pow_succ]; congr 1; omega,
      Nat.mul_div_cancel_left _ (hpow _)]
  simp only [hd] at hlast
  have e1 : (FP - 1) % FP = FP - 1 := Nat.mod_eq_of_lt (by omega)
  have e2 : (FP - 1) / FP = 0 := Nat.div_eq_of_lt (by omega)
  rw [e1, e2] at hlast
  have hrow : st.2 ⟨N - 1, by omega⟩ = fun p : Fin FP => blockVal FP G L (N - 1) (FP * 0 + p.val) := by
    funext p
    exact hlast hFP0 p (by have := p.isLt; omega)
  rw [hrow, ← blockVal_succ hFP0 G L (N - 1) 0, show N - 1 + 1 = N by omega]
  congr 1
  unfold blockVal
  congr 1
  funext k; simp [digits]

/-! ### The recursive schedule -/

theorem populate_eq (zero : T) (origin dimprod : Fin N → Nat)
    (vals : List T) (node : Nat → (Fin FP → T) → Res T)
    (G : Nat → (Fin FP → T) → T) (L : (Nat → Nat) → T)
    (hnode : ∀ j < N, ∀ v, node j v = .ok (G j v))
    (hleaf : ∀ c : Nat → Nat, (∀ k, c k < FP) →
      (∀ k : Fin N, origin k + c k ≤ usizeMax) ∧
      indexArr (fun k : Fin N => origin k + c k) dimprod vals = .ok (L c)) :
    ∀ d ≤ N, ∀ c : Nat → Nat, (∀ k, c k < FP) → (∀ k < d, c k = 0) →
      populate FP zero origin dimprod vals node d (fun k => origin k + c k) =
        .ok (tree FP G L d c, fun k => origin k + c k) := by
  intro d
  induction d with
  | zero =>
    intro _ c hc _
    rw [populate, (hleaf c hc).2]; rfl
  | succ d ih =>
    intro hd c hc hz
    have hdN : d < N := by omega
    rw [populate]
    have hFP : 0 < FP := lt_of_le_of_lt (Nat.zero_le _) (hc 0)
    have hupd : ∀ i, i < FP → ∀ k, Function.update c d i k < FP := by
      intro i hi k
      by_cases hk : k = d
      · subst hk; simpa using hi
      · rw [Function.update_of_ne hk]; exact hc k
    -- state after `i` children: values and current `loc`
    have hloop : forRange FP ((fun _ => zero), fun k => origin k + c k) (fun i
        (st : (Fin FP → T) × (Fin N → Nat)) => do
          let loc ← aset st.2 d (← uadd (← aget origin d) i)
          let r ← populate FP zero origin dimprod vals node d loc
          return (← aset st.1 i r.1, r.2)) =
        .ok ((fun p : Fin FP => tree FP G L d (Function.update c d p.val)),
          fun k => origin k + Function.update c d (FP - 1) k) := by
      have := forRange_eq (n := FP) (init := ((fun _ => zero : Fin FP → T),
          fun k : Fin N => origin k + c k))
        (body := fun i (st : (Fin FP → T) × (Fin N → Nat)) => do
          let loc ← aset st.2 d (← uadd (← aget origin d) i)
          let r ← populate FP zero origin dimprod vals node d loc
          return (← aset st.1 i r.1, r.2))
        (fun i => ((fun p : Fin FP => if p.val < i then
            tree FP G L d (Function.update c d p.val) else zero),
          fun k : Fin N => origin k + Function.update c d (i - 1) k))
        (by
          congr 1
          funext k
          have h0 : c d = 0 := hz d (by omega)
          have : Function.update c d 0 = c := by rw [← h0]; exact Function.update_eq_self d c
          simp [this])
        (by
          intro i hi
          have hu := (hleaf (Function.update c d i) (hupd i hi)).1 ⟨d, hdN⟩
          simp only [Function.update_self] at hu
          rw [aget_lt _ hdN, Res.ok_bind, uadd_ok hu, Res.ok_bind, aset_lt _ hdN, Res.ok_bind]
          have hloc : (fun j : Fin N => if j.val = d then origin ⟨d, hdN⟩ + i else
              origin j + Function.update c d (i - 1) j) =
              fun k : Fin N => origin k + Function.update c d i k := by
            funext k
            by_cases hk : k.val = d
            · have : k = ⟨d, hdN⟩ := Fin.ext hk
              subst this; simp
            · simp [hk]
          simp only
          rw [hloc, ih (by omega) (Function.update c d i) (hupd i hi)
            (by intro k hk; rw [Function.update_of_ne (by omega)]; exact hz k (by omega)),
            Res.ok_bind]
          simp only
          rw [aset_lt _ hi, Res.ok_bind]
          simp only [Res.pure_eq, Nat.add_sub_cancel]
          congr 2
          funext p
          by_cases hp : p.val = i
          · simp [hp]
          · by_cases hp2 : p.val < i
            · simp [hp, hp2, show p.val < i + 1 by omega]
            · simp [hp, hp2, show ¬ p.val < i + 1 by omega])
      rw [this]
      congr 2
      funext p; simp
    rw [hloop, Res.ok_bind]
    simp only
    rw [aget_lt _ hdN, Res.ok_bind, aset_lt _ hdN, Res.ok_bind, hnode d hdN, Res.ok_bind, Res.pure_eq]
    congr 2
    funext k
    by_cases hk : k.val = d
    · have : k = ⟨d, hdN⟩ := Fin.ext hk
      subst this; simp [hz d (by omega)]
    · simp [hk]

/-! ### Vertex offsets are base-`FP` digits -/

theorem offset2_eq (i k : Nat) : offset2 i k = i / 2 ^ k % 2 := by
  unfold offset2
  rw [Nat.shiftRight_and_distrib, Nat.shiftLeft_shiftRight, Nat.shiftRight_eq_div_pow,
    show (1 : Nat) = 2 ^ 1 - 1 by norm_num, Nat.and_two_pow_sub_one_eq_mod]

theorem offset4_eq (i k : Nat) : offset4 i k = i / 4 ^ k % 4 := by
  unfold offset4
  rw [Nat.shiftRight_and_distrib, Nat.shiftLeft_shiftRight, Nat.shiftRight_eq_div_pow, pow_mul,
    show (3 : Nat) = 2 ^ 2 - 1 by norm_num, Nat.and_two_pow_sub_one_eq_mod]
  norm_num

end Interpn
