import Verif.Proof.Arrays
import Mathlib.Data.List.Sort

/-! Lemmas about `sorter.py`: comparison of encodings, one `_sort` step, the queue loop. -/

namespace TDS

namespace Sorter

/-! ### Comparison -/

theorem cmp1d_self (s : Vec) : cmp1d s s = 0 := by
  induction s with
  | nil => rfl
  | cons a s ih => simp [cmp1d, ih]

theorem cmp1d_eq_zero {s t : Vec} (h : s.length = t.length) : cmp1d s t = 0 ↔ s = t := by
  induction s generalizing t with
  | nil => cases t with
    | nil => simp [cmp1d]
    | cons b t => simp at h
  | cons a s ih =>
    cases t with
    | nil => simp at h
    | cons b t =>
      unfold cmp1d
      by_cases hab : a = b
      · rw [if_pos hab, ih (by simpa using h)]
        simp [hab]
      · rw [if_neg hab]
        simp only [List.cons.injEq, hab, false_and, iff_false]
        omega

theorem cmp1d_append {s s' t t' : Vec} (h : s.length = s'.length) :
    cmp1d (s ++ t) (s' ++ t') = if s = s' then cmp1d t t' else cmp1d s s' := by
  induction s generalizing s' with
  | nil =>
    cases s' with
    | nil => simp
    | cons b s' => simp at h
  | cons a s ih =>
    cases s' with
    | nil => simp at h
    | cons b s' =>
      simp only [List.cons_append, cmp1d]
      by_cases hab : a = b
      · rw [if_pos hab, ih (by simpa using h), if_pos hab]
        simp [hab]
      · rw [if_neg hab, if_neg hab, if_neg (by simp [hab])]

theorem cmp1d_neg {s t : Vec} (h : s.length = t.length) : cmp1d s t < 0 ↔
    ∃ p < s.length, s.getD p 0 < t.getD p 0 ∧ ∀ q < p, s.getD q 0 = t.getD q 0 := by
  induction s generalizing t with
  | nil => simp [cmp1d]
  | cons a s ih =>
    cases t with
    | nil => simp at h
    | cons b t =>
      unfold cmp1d
      by_cases hab : a = b
      · rw [if_pos hab, ih (by simpa using h)]
        constructor
        · rintro ⟨p, hp, h1, h2⟩
          refine ⟨p + 1, by simpa using hp, by simpa using h1, ?_⟩
          intro q hq
          cases q with
          | zero => simpa using hab
          | succ q => simpa using h2 q (by omega)
        · rintro ⟨p, hp, h1, h2⟩
          cases p with
          | zero => simp [hab] at h1
          | succ p =>
            refine ⟨p, by simpa using hp, by simpa using h1, ?_⟩
            intro q hq
            simpa using h2 (q + 1) (by omega)
      · rw [if_neg hab]
        constructor
        · intro h
          exact ⟨0, by simp, by simp; omega, by simp⟩
        · rintro ⟨p, hp, h1, h2⟩
          cases p with
          | zero => simp at h1; omega
          | succ p =>
            have := h2 0 (by omega)
            simp at this
            exact absurd this hab

theorem cmp1d_antisymm (s t : Vec) : cmp1d s t = - cmp1d t s := by
  induction s generalizing t with
  | nil => cases t <;> rfl
  | cons a s ih =>
    cases t with
    | nil => rfl
    | cons b t =>
      unfold cmp1d
      by_cases hab : a = b
      · rw [if_pos hab, if_pos hab.symm, ih]
      · rw [if_neg hab, if_neg (fun h => hab h.symm)]; omega

theorem encodeFrom_length {v : Nat} (r : Nat) (a b : Mat) (hl : a.length = b.length)
    (ha : ∀ x ∈ a, x.length = v) (hb : ∀ x ∈ b, x.length = v) :
    (encodeFrom r a).length = (encodeFrom r b).length := by
  induction a generalizing b r with
  | nil => cases b with
    | nil => rfl
    | cons => simp at hl
  | cons x a ih =>
    cases b with
    | nil => simp at hl
    | cons y b =>
      simp only [encodeFrom, List.length_append, List.length_drop]
      rw [ih (r + 1) b (by simpa using hl) (fun z hz => ha z (List.mem_cons_of_mem _ hz))
        (fun z hz => hb z (List.mem_cons_of_mem _ hz)), ha x (by simp), hb y (by simp)]

theorem getD_drop' (l : Vec) (n p : Nat) : (l.drop n).getD p 0 = l.getD (n + p) 0 := by
  rw [List.getD_eq_getElem?_getD, List.getElem?_drop, ← List.getD_eq_getElem?_getD]

theorem drop_eq_iff {v n : Nat} {x y : Vec} (hx : x.length = v) (hy : y.length = v) :
    x.drop n = y.drop n ↔ ∀ j, n ≤ j → j < v → x.getD j 0 = y.getD j 0 := by
  constructor
  · intro h j hj hjv
    have h1 := getD_drop' x n (j - n)
    have h2 := getD_drop' y n (j - n)
    rw [h] at h1
    rw [show n + (j - n) = j by omega] at h1 h2
    rw [← h1, ← h2]
  · intro h
    apply List.ext_getElem (by simp [hx, hy])
    intro p hp hp'
    simp only [List.length_drop] at hp hp'
    rw [List.getElem_drop, List.getElem_drop]
    have := h (n + p) (by omega) (by omega)
    rwa [List.getD_eq_getElem _ _ (by omega), List.getD_eq_getElem _ _ (by omega)] at this

theorem cmp_encodeFrom_eq {v : Nat} (r : Nat) (a b : Mat) (hl : a.length = b.length)
    (ha : ∀ x ∈ a, x.length = v) (hb : ∀ x ∈ b, x.length = v) :
    encodeFrom r a = encodeFrom r b ↔
      ∀ i < a.length, ∀ j, r + i < j → j < v → Spec.ent a i j = Spec.ent b i j := by
  induction a generalizing b r with
  | nil => cases b with
    | nil => simp
    | cons => simp at hl
  | cons x a ih =>
    cases b with
    | nil => simp at hl
    | cons y b =>
      have hx := ha x (by simp)
      have hy := hb y (by simp)
      have ih := ih (r + 1) b (by simpa using hl) (fun z hz => ha z (List.mem_cons_of_mem _ hz))
        (fun z hz => hb z (List.mem_cons_of_mem _ hz))
      simp only [encodeFrom]
      rw [List.append_eq_append_iff_of_size_eq_left (by simp [hx, hy]), ih, drop_eq_iff hx hy]
      constructor
      · rintro ⟨h1, h2⟩ i hi j hij hj
        cases i with
        | zero => simpa [Spec.ent] using h1 j (by omega) hj
        | succ i => simpa [Spec.ent] using h2 i (by simpa using hi) j (by omega) hj
      · intro h
        refine ⟨?_, ?_⟩
        · intro j hj hjv
          simpa [Spec.ent] using h 0 (by simp) j (by omega) hjv
        · intro i hi j hij hj
          simpa [Spec.ent] using h (i + 1) (by simpa using hi) j (by omega) hj

theorem cmp_encodeFrom_neg {v : Nat} (r : Nat) (a b : Mat) (hl : a.length = b.length)
    (ha : ∀ x ∈ a, x.length = v) (hb : ∀ x ∈ b, x.length = v) :
    cmp1d (encodeFrom r a) (encodeFrom r b) < 0 ↔
      ∃ i j, i < a.length ∧ r + i < j ∧ j < v ∧ Spec.ent a i j < Spec.ent b i j ∧
        ∀ i' j', r + i' < j' → j' < v → Spec.Before i' j' i j →
          Spec.ent a i' j' = Spec.ent b i' j' := by
  induction a generalizing b r with
  | nil => cases b with
    | nil => simp [encodeFrom, cmp1d]
    | cons => simp at hl
  | cons x a ih =>
    cases b with
    | nil => simp at hl
    | cons y b =>
      have hx := ha x (by simp)
      have hy := hb y (by simp)
      have ih := ih (r + 1) b (by simpa using hl) (fun z hz => ha z (List.mem_cons_of_mem _ hz))
        (fun z hz => hb z (List.mem_cons_of_mem _ hz))
      simp only [encodeFrom]
      rw [cmp1d_append (by simp [hx, hy])]
      by_cases he : x.drop (r + 1) = y.drop (r + 1)
      · rw [if_pos he, ih]
        rw [drop_eq_iff hx hy] at he
        constructor
        · rintro ⟨i, j, hi, hij, hj, hlt, hall⟩
          refine ⟨i + 1, j, by simpa using hi, by omega, hj, by simpa [Spec.ent] using hlt, ?_⟩
          intro i' j' h1 h2 h3
          cases i' with
          | zero => simpa [Spec.ent] using he j' (by omega) h2
          | succ i' =>
            have := hall i' j' (by omega) h2 (by
              rcases h3 with h3 | h3
              · left; omega
              · right; omega)
            simpa [Spec.ent] using this
        · rintro ⟨i, j, hi, hij, hj, hlt, hall⟩
          cases i with
          | zero =>
            have := he j (by omega) hj
            simp [Spec.ent] at hlt
            simp at this
            omega
          | succ i =>
            refine ⟨i, j, by simpa using hi, by omega, hj, by simpa [Spec.ent] using hlt, ?_⟩
            intro i' j' h1 h2 h3
            have := hall (i' + 1) j' (by omega) h2 (by
              rcases h3 with h3 | h3
              · left; omega
              · right; omega)
            simpa [Spec.ent] using this
      · rw [if_neg he, cmp1d_neg (by simp [hx, hy])]
        constructor
        · rintro ⟨p, hp, h1, h2⟩
          rw [getD_drop', getD_drop'] at h1
          simp only [List.length_drop] at hp
          refine ⟨0, r + 1 + p, by simp, by omega, by omega, h1, ?_⟩
          intro i' j' g1 g2 g3
          have hi' : i' = 0 := by rcases g3 with g3 | g3 <;> omega
          subst hi'
          have := h2 (j' - (r + 1)) (by rcases g3 with g3 | g3 <;> omega)
          rw [getD_drop', getD_drop', show r + 1 + (j' - (r + 1)) = j' by omega] at this
          exact this
        · rintro ⟨i, j, hi, hij, hj, hlt, hall⟩
          cases i with
          | zero =>
            refine ⟨j - (r + 1), by simp only [List.length_drop]; omega, ?_, ?_⟩
            · rw [getD_drop', getD_drop', show r + 1 + (j - (r + 1)) = j by omega]
              exact hlt
            · intro q hq
              rw [getD_drop', getD_drop']
              exact hall 0 (r + 1 + q) (by omega) (by omega) (Or.inr ⟨rfl, by omega⟩)
          | succ i =>
            exfalso
            apply he
            rw [drop_eq_iff hx hy]
            intro j' h1 h2
            exact hall 0 j' (by omega) h2 (Or.inl (by omega))

section

variable {v : Nat} {a b : Mat} (ha : Spec.Square v a) (hb : Spec.Square v b)

include ha hb

theorem encode_length : (encode a).length = (encode b).length :=
  encodeFrom_length 0 a b (by rw [ha.rows, hb.rows]) ha.rect hb.rect

theorem cmpMat_neg : cmpMat a b < 0 ↔ Spec.UpperLT v a b := by
  unfold cmpMat encode Spec.UpperLT
  rw [cmp_encodeFrom_neg 0 a b (by rw [ha.rows, hb.rows]) ha.rect hb.rect]
  simp only [Nat.zero_add, ha.rows]
  constructor
  · rintro ⟨i, j, -, h⟩; exact ⟨i, j, h⟩
  · rintro ⟨i, j, h1, h2, h⟩; exact ⟨i, j, by omega, h1, h2, h⟩

theorem cmpMat_zero : cmpMat a b = 0 ↔ Spec.UpperEq v a b := by
  unfold cmpMat encode Spec.UpperEq
  rw [cmp1d_eq_zero (encodeFrom_length 0 a b (by rw [ha.rows, hb.rows]) ha.rect hb.rect),
    cmp_encodeFrom_eq 0 a b (by rw [ha.rows, hb.rows]) ha.rect hb.rect]
  simp only [Nat.zero_add, ha.rows]
  constructor
  · intro h i j hij hj; exact h i (by omega) j hij hj
  · intro h i _ j hij hj; exact h i j hij hj

theorem upper_trichotomy : Spec.UpperLT v a b ∨ Spec.UpperEq v a b ∨ Spec.UpperLT v b a := by
  rw [← cmpMat_neg ha hb, ← cmpMat_neg hb ha, ← cmpMat_zero ha hb]
  have := cmp1d_antisymm (encode a) (encode b)
  unfold cmpMat
  omega

end

theorem upperLT_trans {v : Nat} {a b c : Mat} (h : Spec.UpperLT v a b) (h' : Spec.UpperLT v b c) :
    Spec.UpperLT v a c := by
  obtain ⟨i, j, h1, h2, h3, h4⟩ := h
  obtain ⟨i', j', g1, g2, g3, g4⟩ := h'
  unfold Spec.Before at h4 g4
  rcases Nat.lt_trichotomy i i' with hi | hi | hi
  · refine ⟨i, j, h1, h2, ?_, ?_⟩
    · rw [← g4 i j h1 h2 (Or.inl hi)]; exact h3
    · intro p q hp hq hb
      rw [h4 p q hp hq hb, g4 p q hp hq (by rcases hb with hb | hb <;> omega)]
  · subst hi
    rcases Nat.lt_trichotomy j j' with hj | hj | hj
    · refine ⟨i, j, h1, h2, ?_, ?_⟩
      · rw [← g4 i j h1 h2 (Or.inr ⟨rfl, hj⟩)]; exact h3
      · intro p q hp hq hb
        rw [h4 p q hp hq hb, g4 p q hp hq (by rcases hb with hb | hb <;> omega)]
    · subst hj
      refine ⟨i, j, h1, h2, lt_trans h3 g3, ?_⟩
      intro p q hp hq hb
      rw [h4 p q hp hq hb, g4 p q hp hq hb]
    · refine ⟨i, j', g1, g2, ?_, ?_⟩
      · rw [h4 i j' g1 g2 (Or.inr ⟨rfl, hj⟩)]; exact g3
      · intro p q hp hq hb
        rw [h4 p q hp hq (by rcases hb with hb | hb <;> omega), g4 p q hp hq hb]
  · refine ⟨i', j', g1, g2, ?_, ?_⟩
    · rw [h4 i' j' g1 g2 (Or.inl hi)]; exact g3
    · intro p q hp hq hb
      rw [h4 p q hp hq (by rcases hb with hb | hb <;> omega), g4 p q hp hq hb]

/-! ### Sorting lists of matrices -/

theorem insertBy_perm (x : Mat) (l : List Mat) : (insertBy x l).Perm (x :: l) := by
  induction l with
  | nil => exact List.Perm.refl _
  | cons y t ih =>
    unfold insertBy
    split
    · exact (ih.cons y).trans (List.Perm.swap x y t)
    · exact List.Perm.refl _

theorem foldr_perm (l : List Mat) : (l.foldr insertBy []).Perm l := by
  induction l with
  | nil => exact List.Perm.refl _
  | cons x t ih => exact (insertBy_perm x _).trans (ih.cons x)

theorem insertBy_sorted {v : Nat} {x : Mat} {l : List Mat} (hx : Spec.Square v x)
    (hl : ∀ m ∈ l, Spec.Square v m) (h : l.Pairwise (fun a b => ¬ Spec.UpperLT v b a)) :
    (insertBy x l).Pairwise (fun a b => ¬ Spec.UpperLT v b a) := by
  induction l with
  | nil => simp [insertBy]
  | cons y t ih =>
    have hy := hl y (by simp)
    have h1 := List.pairwise_cons.1 h
    unfold insertBy
    by_cases hc : cmpMat y x < 0
    · rw [if_pos hc]
      rw [cmpMat_neg hy hx] at hc
      refine List.pairwise_cons.2 ⟨?_, ih (fun m hm => hl m (List.mem_cons_of_mem _ hm)) h1.2⟩
      intro z hz
      rcases List.mem_cons.1 ((insertBy_perm x t).mem_iff.1 hz) with rfl | hz
      · intro hb
        have := upperLT_trans hc hb
        rw [← cmpMat_neg hy hy] at this
        have h0 := cmp1d_self (encode y)
        unfold cmpMat at this
        omega
      · exact h1.1 z hz
    · rw [if_neg hc]
      rw [cmpMat_neg hy hx] at hc
      refine List.pairwise_cons.2 ⟨?_, h⟩
      intro z hz
      rcases List.mem_cons.1 hz with rfl | hz
      · exact hc
      · intro hb
        have hz' := hl z (List.mem_cons_of_mem _ hz)
        rcases upper_trichotomy hx hy with h2 | h2 | h2
        · exact h1.1 z hz (upperLT_trans hb h2)
        · apply h1.1 z hz
          rw [← cmpMat_neg hz' hy]
          rw [← cmpMat_neg hz' hx] at hb
          rw [← cmpMat_zero hx hy, cmpMat, cmp1d_eq_zero (encode_length hx hy)] at h2
          unfold cmpMat at hb ⊢
          rw [← h2]; exact hb
        · exact hc h2

theorem foldr_sorted {v : Nat} {l : List Mat} (hl : ∀ m ∈ l, Spec.Square v m) :
    (l.foldr insertBy []).Pairwise (fun a b => ¬ Spec.UpperLT v b a) := by
  induction l with
  | nil => simp
  | cons x t ih =>
    exact insertBy_sorted (hl x (by simp))
      (fun m hm => hl m (List.mem_cons_of_mem _ ((foldr_perm t).mem_iff.1 hm)))
      (ih (fun m hm => hl m (List.mem_cons_of_mem _ hm)))

/-! ### One `_sort` step -/

/-- `argsort` leaves sorted input alone (true of every stable sort). -/
def Keeps (argsort : Vec → List Nat) : Prop :=
  ∀ a : Vec, a.Pairwise (· ≤ ·) → argsort a = List.range a.length

theorem slice_length {v : Nat} {M : Mat} (h : Spec.Square v M) {row c0 c1 : Nat} (hr : row < v)
    (hc : c1 ≤ v) : (slice M row c0 c1).length = c1 - c0 := by
  unfold slice
  have : (M.getD row []).length = v := by
    rw [List.getD_eq_getElem _ _ (by rw [h.rows]; exact hr)]
    exact h.rect _ (List.getElem_mem _)
  rw [List.length_drop, List.length_take, this]
  omega

theorem slice_getD {M : Mat} {row c0 c1 p : Nat} (hp : c0 + p < c1) :
    (slice M row c0 c1).getD p 0 = Spec.ent M row (c0 + p) := by
  unfold slice Spec.ent
  rw [getD_drop', List.getD_eq_getElem?_getD, List.getElem?_take, if_pos hp,
    ← List.getD_eq_getElem?_getD]

theorem window_length {v c0 c1 : Nat} {i : List Nat} (hc : c0 ≤ c1) (hv : c1 ≤ v)
    (hi : i.length = c1 - c0) : (window v c0 c1 i).length = v := by
  unfold window
  simp only [List.length_append, List.length_map, List.length_range, hi]
  omega

theorem window_perm {v c0 c1 : Nat} {i : List Nat} (hc : c0 ≤ c1) (hv : c1 ≤ v)
    (hi : i.Perm (List.range (c1 - c0))) : (window v c0 c1 i).Perm (List.range v) := by
  unfold window
  have h1 : (i.map (· + c0)).Perm ((List.range (c1 - c0)).map (· + c0)) := hi.map _
  have h2 : List.range v = List.range c0 ++ (List.range (c1 - c0)).map (· + c0) ++
      (List.range (v - c1)).map (· + c1) := by
    apply List.ext_getElem
    · simp; omega
    · intro n h1 h2
      rw [List.getElem_range, List.getElem_append]
      split
      · rw [List.getElem_append]
        split
        · rw [List.getElem_range]
        · rw [List.getElem_map, List.getElem_range]
          simp at *; omega
      · rw [List.getElem_map, List.getElem_range]
        simp at *; omega
  rw [h2]
  exact (h1.append_left _).append_right _

theorem window_getD {v c0 c1 : Nat} {i : List Nat} (hc : c0 ≤ c1) (hv : c1 ≤ v)
    (hi : i.length = c1 - c0) (n : Nat) (hn : n < v) :
    (window v c0 c1 i).getD n 0 =
      if c0 ≤ n ∧ n < c1 then i.getD (n - c0) 0 + c0 else n := by
  unfold window
  rw [List.append_assoc]
  by_cases h0 : n < c0
  · rw [List.getD_append _ _ _ _ (by simpa using h0), if_neg (by omega),
      List.getD_eq_getElem _ _ (by simpa using h0), List.getElem_range]
  · rw [List.getD_append_right _ _ _ _ (by simp; omega), List.length_range]
    by_cases h1 : n < c1
    · rw [List.getD_append _ _ _ _ (by simp [hi]; omega), if_pos (by omega),
        getD_map_lt (by omega) 0 0]
    · rw [List.getD_append_right _ _ _ _ (by simp [hi]; omega), if_neg (by omega),
        List.length_map, hi, getD_map_range (by omega)]
      omega

/-- A rearrangement of a list that is sorted decreasingly is the list itself or its first
difference is an increase. -/
theorem sorted_perm_gt {a a' : Vec} (hp : a'.Perm a) (hs : a'.Pairwise (fun x y => y ≤ x))
    (hne : a' ≠ a) : ∃ p < a.length, a.getD p 0 < a'.getD p 0 ∧
      ∀ q < p, a.getD q 0 = a'.getD q 0 := by
  induction a' generalizing a with
  | nil =>
    have := hp.length_eq
    cases a with
    | nil => exact absurd rfl hne
    | cons => simp at this
  | cons x t ih =>
    cases a with
    | nil => have := hp.length_eq; simp at this
    | cons y s =>
      have h1 := List.pairwise_cons.1 hs
      by_cases hxy : y = x
      · subst hxy
        have hp' := (List.perm_cons y).1 hp
        obtain ⟨p, g1, g2, g3⟩ := ih hp' h1.2 (fun h => hne (by rw [h]))
        refine ⟨p + 1, by simpa using g1, by simpa using g2, ?_⟩
        intro q hq
        cases q with
        | zero => simp
        | succ q => simpa using g3 q (by omega)
      · have hy : y ∈ x :: t := hp.mem_iff.2 (by simp)
        have hyt : y ∈ t := by
          rcases List.mem_cons.1 hy with h | h
          · exact absurd h hxy
          · exact h
        have := h1.1 y hyt
        exact ⟨0, by simp, by simp; omega, by simp⟩

theorem head_npWhere (p : Int → Bool) (a : Vec) (k : Nat) :
    (∀ d, (whereFrom p k a).head? = some d → k ≤ d ∧ d - k < a.length ∧ p (a.getD (d - k) 0) = true ∧
      ∀ q < d - k, p (a.getD q 0) = false) ∧
    ((whereFrom p k a).head? = none → ∀ q < a.length, p (a.getD q 0) = false) := by
  induction a generalizing k with
  | nil => simp [whereFrom]
  | cons x t ih =>
    unfold whereFrom
    by_cases hx : p x = true
    · rw [if_pos hx]
      refine ⟨?_, by simp⟩
      intro d hd
      simp only [List.head?_cons, Option.some.injEq] at hd
      subst hd
      refine ⟨Nat.le_refl _, by simp, by simpa using hx, ?_⟩
      intro q hq; omega
    · rw [if_neg hx]
      rw [Bool.not_eq_true] at hx
      refine ⟨?_, ?_⟩
      · intro d hd
        obtain ⟨g1, g2, g3, g4⟩ := (ih (k + 1)).1 d hd
        rw [show d - k = d - (k + 1) + 1 by omega]
        refine ⟨by omega, by simp; omega, by simpa using g3, ?_⟩
        intro q hq
        cases q with
        | zero => simpa using hx
        | succ q => simpa using g4 q (by omega)
      · intro hd q hq
        cases q with
        | zero => simpa using hx
        | succ q => simpa using (ih (k + 1)).2 hd q (by simpa using hq)

/-- What one effective `_sort` call does. -/
structure Step (argsort : Vec → List Nat) (v : Nat) (M S : Mat) (row c0 c1 : Nat)
    (d : Option Nat) : Prop where
  square : Spec.Square v S
  relabels : Spec.Relabels v M S
  map : ∃ f : Nat → Nat, (∀ j, ¬ (c0 ≤ j ∧ j < c1) → f j = j) ∧
    (∀ j, c0 ≤ j → j < c1 → c0 ≤ f j ∧ f j < c1) ∧
    ∀ a < v, ∀ b < v, Spec.ent S a b = Spec.ent M (f a) (f b)
  sorted : ∀ j j', c0 ≤ j → j < j' → j' < c1 → Spec.ent S row j' ≤ Spec.ent S row j
  first : ∀ x, d = some x → c0 ≤ x ∧ x < c1 ∧ Spec.ent S row x = 0 ∧
    ∀ j, c0 ≤ j → j < x → Spec.ent S row j ≠ 0
  none : d = none → ∀ j, c0 ≤ j → j < c1 → Spec.ent S row j ≠ 0
  hit : ∀ z, c0 ≤ z → z < c1 → ∃ j, c0 ≤ j ∧ j < c1 ∧ Spec.ent S row j = Spec.ent M row z
  grow : (∀ i < row, ∀ j j', c0 ≤ j → j < c1 → c0 ≤ j' → j' < c1 →
      Spec.ent M i j = Spec.ent M i j') → Keeps argsort → S = M ∨ Spec.UpperLT v M S

theorem sortRow_step {argsort : Vec → List Nat} (ha : IsArgsort argsort) {v : Nat} {M : Mat}
    (hs : Spec.Square v M) {row c0 c1 : Nat} (hr : row < c0) (hc : c0 < c1) (hv : c1 ≤ v) :
    (¬ Spec.Symmetric v M → sortRow argsort M row c0 (some c1) = .error .assertion) ∧
    (Spec.Symmetric v M → ∃ S d, sortRow argsort M row c0 (some c1) = .ok (S, d) ∧
      Step argsort v M S row c0 c1 d) := by
  set a := slice M row c0 c1 with hadef
  have hal : a.length = c1 - c0 := slice_length hs (by omega) hv
  set i := argsort (a.map (fun x => -x)) with hidef
  have hip : i.Perm (List.range (c1 - c0)) := by
    have := ha.perm (a.map (fun x => -x))
    rwa [List.length_map, hal] at this
  have hil : i.length = c1 - c0 := by rw [hip.length_eq, List.length_range]
  have hwp := window_perm hc.le hv hip
  have hwl : (window v c0 c1 i).length = v := window_length hc.le hv hil
  obtain ⟨hSq, hRel⟩ := permute_relabels (M := M) hwp
  set S := permute M (window v c0 c1 i) with hSdef
  have hrun : sortRow argsort M row c0 (some c1) = (do
      pyAssert (decide (S = transpose S))
      .ok (S, (npWhere (fun x => x == 0) (slice S row c0 c1)).head?.map (· + c0))) := by
    unfold sortRow
    rw [if_neg (by omega)]
    simp only [hs.rows]
    rw [if_neg (by omega)]
  constructor
  · intro hn
    have : decide (S = transpose S) = false := by
      have : ¬ S = transpose S := fun h =>
        hn (symmetric_relabel (relabels_symm hRel) ((eq_transpose_iff hSq).1 h))
      simpa using this
    rw [hrun, this]
    rfl
  · intro hsym
    have hdec : decide (S = transpose S) = true := by
      simpa using (eq_transpose_iff hSq).2 (symmetric_relabel hRel hsym)
    refine ⟨S, (npWhere (fun x => x == 0) (slice S row c0 c1)).head?.map (· + c0), ?_, ?_⟩
    · rw [hrun, hdec]; rfl
    have hiv : ∀ n < v, (window v c0 c1 i).getD n 0 =
        if c0 ≤ n ∧ n < c1 then i.getD (n - c0) 0 + c0 else n := fun n hn =>
      window_getD hc.le hv hil n hn
    have hilt : ∀ n < c1 - c0, i.getD n 0 < c1 - c0 := by
      intro n hn
      rw [List.getD_eq_getElem _ _ (by omega)]
      exact List.mem_range.1 (hip.mem_iff.1 (List.getElem_mem _))
    set f : Nat → Nat := fun n => if c0 ≤ n ∧ n < c1 then i.getD (n - c0) 0 + c0 else n with hf
    have hent : ∀ a < v, ∀ b < v, Spec.ent S a b = Spec.ent M (f a) (f b) := by
      intro a ha b hb
      rw [hSdef, permute_ent (by omega) (by omega), hiv a ha, hiv b hb]
    have hfrow : f row = row := by simp only [hf]; rw [if_neg (by omega)]
    have hag : ∀ q, c0 + q < c1 → a.getD q 0 = Spec.ent M row (c0 + q) := fun q hq =>
      slice_getD hq
    have hsl : slice S row c0 c1 = i.map (fun n => a.getD n 0) := by
      apply List.ext_getElem
      · rw [slice_length hSq (by omega) hv, List.length_map, hil]
      · intro n h1 h2
        rw [slice_length hSq (by omega) hv] at h1
        rw [← List.getD_eq_getElem _ 0, slice_getD (by omega), hent row (by omega) _ (by omega),
          hfrow, List.getElem_map]
        simp only [hf]
        rw [if_pos (by omega), Nat.add_sub_cancel_left, List.getD_eq_getElem _ _ (by omega)]
        have h3 := hilt n h1
        rw [List.getD_eq_getElem _ _ (by omega)] at h3
        rw [hag _ (by omega), Nat.add_comm]
    have hsorted : (slice S row c0 c1).Pairwise (fun x y => y ≤ x) := by
      rw [hsl]
      have h1 := ha.sorted (a.map (fun x => -x))
      rw [← hidef] at h1
      rw [List.pairwise_map] at h1 ⊢
      refine h1.imp_of_mem ?_
      intro x y hx hy hxy
      have hx' := List.mem_range.1 (hip.mem_iff.1 hx)
      have hy' := List.mem_range.1 (hip.mem_iff.1 hy)
      rw [getD_map_lt (by omega) 0 0, getD_map_lt (by omega) 0 0] at hxy
      omega
    have hsort' : ∀ j j', c0 ≤ j → j < j' → j' < c1 → Spec.ent S row j' ≤ Spec.ent S row j := by
      intro j j' h1 h2 h3
      rw [List.pairwise_iff_getElem] at hsorted
      have hl := slice_length (c0 := c0) hSq (show row < v by omega) hv
      have := hsorted (j - c0) (j' - c0) (by omega) (by omega) (by omega)
      rw [← List.getD_eq_getElem _ 0, ← List.getD_eq_getElem _ 0, slice_getD (by omega),
        slice_getD (by omega), show c0 + (j - c0) = j by omega,
        show c0 + (j' - c0) = j' by omega] at this
      exact this
    have hhead := head_npWhere (fun x => x == 0) (slice S row c0 c1) 0
    have hl := slice_length (c0 := c0) hSq (show row < v by omega) hv
    refine ⟨hSq, hRel, ⟨f, ?_, ?_, hent⟩, hsort', ?_, ?_, ?_, ?_⟩
    · intro j hj; simp only [hf]; rw [if_neg hj]
    · intro j h1 h2
      simp only [hf]; rw [if_pos ⟨h1, h2⟩]
      have := hilt (j - c0) (by omega)
      omega
    · intro x hx
      rw [Option.map_eq_some_iff] at hx
      obtain ⟨y, hy, rfl⟩ := hx
      obtain ⟨-, g2, g3, g4⟩ := hhead.1 y hy
      simp only [Nat.sub_zero] at g2 g3 g4
      rw [slice_getD (by omega)] at g3
      refine ⟨by omega, by omega, by rw [Nat.add_comm]; simpa using g3, ?_⟩
      intro j h1 h2
      have := g4 (j - c0) (by omega)
      rw [slice_getD (by omega), show c0 + (j - c0) = j by omega] at this
      simpa using this
    · intro hx j h1 h2
      rw [Option.map_eq_none_iff] at hx
      have := hhead.2 hx (j - c0) (by omega)
      rw [slice_getD (by omega), show c0 + (j - c0) = j by omega] at this
      simpa using this
    · intro z h1 h2
      have hz : z - c0 ∈ i := hip.mem_iff.2 (List.mem_range.2 (by omega))
      obtain ⟨n, hn, hne⟩ := List.getElem_of_mem hz
      refine ⟨c0 + n, by omega, by omega, ?_⟩
      rw [hent row (by omega) _ (by omega), hfrow]
      simp only [hf]
      rw [if_pos (by omega), Nat.add_sub_cancel_left, List.getD_eq_getElem _ _ hn, hne,
        show z - c0 + c0 = z by omega]
    · intro hconst hk
      by_cases he : slice S row c0 c1 = a
      · left
        have hsa : (a.map (fun x => -x)).Pairwise (· ≤ ·) := by
          rw [he] at hsorted
          rw [List.pairwise_map]
          exact hsorted.imp (fun h => by omega)
        have hi0 : i = List.range (c1 - c0) := by
          rw [hidef, hk _ hsa, List.length_map, hal]
        refine square_ext hSq hs ?_
        intro x hx y hy
        rw [hent x hx y hy]
        have hfid : ∀ n < v, f n = n := by
          intro n hn
          simp only [hf]
          split
          · rw [hi0, List.getD_eq_getElem _ _ (by simp; omega), List.getElem_range]; omega
          · rfl
        rw [hfid x hx, hfid y hy]
      · right
        have hperm : (slice S row c0 c1).Perm a := by
          rw [hsl]
          refine (hip.map _).trans (List.Perm.of_eq ?_)
          apply List.ext_getElem
          · rw [List.length_map, List.length_range, hal]
          · intro n h1 h2
            rw [List.getElem_map, List.getElem_range, List.getD_eq_getElem _ _ h2]
        obtain ⟨p, g1, g2, g3⟩ := sorted_perm_gt hperm hsorted he
        have hlow : ∀ i' < row, ∀ j' < v, Spec.ent S i' j' = Spec.ent M i' j' := by
          intro i' hi' j' hj'
          rw [hent i' (by omega) j' hj']
          have : f i' = i' := by simp only [hf]; rw [if_neg (by omega)]
          rw [this]
          by_cases hjw : c0 ≤ j' ∧ j' < c1
          · have hb : c0 ≤ f j' ∧ f j' < c1 := by
              simp only [hf]; rw [if_pos hjw]
              have := hilt (j' - c0) (by omega)
              omega
            exact hconst i' hi' _ _ hb.1 hb.2 hjw.1 hjw.2
          · have : f j' = j' := by simp only [hf]; rw [if_neg hjw]
            rw [this]
        rw [hadef, slice_getD (by omega), slice_getD (by omega)] at g2
        refine ⟨row, c0 + p, by omega, by omega, g2, ?_⟩
        intro i' j' h1 h2 h3
        rcases h3 with h3 | ⟨rfl, h3⟩
        · rw [hlow i' h3 j' h2]
        · by_cases hjc : c0 ≤ j'
          · have := g3 (j' - c0) (by omega)
            rw [hadef, slice_getD (by omega), slice_getD (by omega),
              show c0 + (j' - c0) = j' by omega] at this
            exact this
          · rw [hent i' (by omega) j' h2, hfrow]
            have : f j' = j' := by simp only [hf]; rw [if_neg (by omega)]
            rw [this]

end Sorter

end TDS
