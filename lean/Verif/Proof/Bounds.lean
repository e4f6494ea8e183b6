import Verif.Model.Small
import Verif.Proof.Keys

/-! Lemmas about bounds.py and `np.where`. -/

namespace TDS

theorem mem_whereFrom {p : Int → Bool} {l : Vec} {i c : Nat} :
    c ∈ whereFrom p i l ↔ i ≤ c ∧ c - i < l.length ∧ p (l.getD (c - i) 0) = true := by
  induction l generalizing i with
  | nil => simp [whereFrom]
  | cons a l ih =>
    rw [whereFrom]
    have key : c ∈ whereFrom p (i + 1) l ↔
        i + 1 ≤ c ∧ c - i < (a :: l).length ∧ p ((a :: l).getD (c - i) 0) = true := by
      rw [ih]
      constructor
      · rintro ⟨h1, h2, h3⟩
        obtain ⟨k, hk⟩ : ∃ k, c - i = k + 1 := ⟨c - i - 1, by omega⟩
        have hk' : c - (i + 1) = k := by omega
        rw [hk'] at h2 h3
        rw [hk]
        exact ⟨h1, by simpa using h2, by simpa using h3⟩
      · rintro ⟨h1, h2, h3⟩
        obtain ⟨k, hk⟩ : ∃ k, c - i = k + 1 := ⟨c - i - 1, by omega⟩
        have hk' : c - (i + 1) = k := by omega
        rw [hk] at h2 h3
        rw [hk']
        exact ⟨h1, by simpa using h2, by simpa using h3⟩
    have zero : (c = i ∧ p a = true) ↔ (c = i ∧ c - i < (a :: l).length ∧
        p ((a :: l).getD (c - i) 0) = true) := by
      constructor
      · rintro ⟨rfl, h⟩; simp [h]
      · rintro ⟨rfl, _, h⟩; simpa using h
    by_cases hp : p a = true
    · rw [if_pos hp, List.mem_cons, key]
      constructor
      · rintro (h | h)
        · obtain ⟨h1, h2⟩ := zero.1 ⟨h, hp⟩; exact ⟨by omega, h2⟩
        · exact ⟨by omega, h.2⟩
      · rintro ⟨h1, h2⟩
        by_cases hc : c = i
        · exact Or.inl hc
        · exact Or.inr ⟨by omega, h2⟩
    · rw [if_neg hp, key]
      constructor
      · rintro h; exact ⟨by omega, h.2⟩
      · rintro ⟨h1, h2⟩
        by_cases hc : c = i
        · exact absurd (zero.2 ⟨hc, h2⟩).2 hp
        · exact ⟨by omega, h2⟩

theorem mem_npWhere {p : Int → Bool} {l : Vec} {c : Nat} :
    c ∈ npWhere p l ↔ c < l.length ∧ p (l.getD c 0) = true := by
  unfold npWhere; rw [mem_whereFrom]; simp

theorem whereFrom_pairwise (p : Int → Bool) (l : Vec) (i : Nat) :
    (whereFrom p i l).Pairwise (· < ·) := by
  induction l generalizing i with
  | nil => simp [whereFrom]
  | cons a l ih =>
    rw [whereFrom]
    split
    · rw [List.pairwise_cons]
      refine ⟨?_, ih _⟩
      intro c hc
      have := (mem_whereFrom.1 hc).1
      omega
    · exact ih _

theorem npWhere_nodup (p : Int → Bool) (l : Vec) : (npWhere p l).Nodup :=
  List.Pairwise.imp (fun h => Nat.ne_of_lt h) (whereFrom_pairwise p l 0)

namespace Bounds

/-- Fold of `boundRow`. -/
def lub (S : List (Vec × Int)) (bd : Vec) : Vec := S.foldl (fun bd p => boundRow p.1 p.2 bd) bd

theorem lowerUpperBound_eq (A : Mat) (b bd : Vec) : lowerUpperBound A b bd = lub (A.zip b) bd := rfl

theorem boundRow_length {row bd : Vec} (u : Int) (h : row.length = bd.length) :
    (boundRow row u bd).length = bd.length := by simp [boundRow, h]

theorem boundRow_getD {row bd : Vec} (u : Int) (h : row.length = bd.length) (j : Nat) :
    (boundRow row u bd).getD j 0 =
      if row.getD j 0 ≠ 0 then min (bd.getD j 0) u else bd.getD j 0 := by
  induction row generalizing bd j with
  | nil => cases bd with
    | nil => simp [boundRow]
    | cons _ _ => simp at h
  | cons a row ih => cases bd with
    | nil => simp at h
    | cons c bd =>
      simp only [List.length_cons, Nat.add_right_cancel_iff] at h
      cases j with
      | zero => simp [boundRow]
      | succ j =>
        have := ih h j
        simpa [boundRow] using this

theorem lub_length {S : List (Vec × Int)} {bd : Vec} (h : ∀ p ∈ S, p.1.length = bd.length) :
    (lub S bd).length = bd.length := by
  induction S generalizing bd with
  | nil => rfl
  | cons p S ih =>
    simp only [lub, List.foldl_cons]
    have h1 := boundRow_length p.2 (h p (by simp))
    have := ih (bd := boundRow p.1 p.2 bd) (fun q hq => by rw [h1]; exact h q (by simp [hq]))
    rw [h1] at this; exact this

/-- Scalar version of the fold. -/
def lub1 (S : List (Vec × Int)) (j : Nat) (m : Int) : Int :=
  S.foldl (fun m p => if p.1.getD j 0 ≠ 0 then min m p.2 else m) m

theorem lub_getD {S : List (Vec × Int)} {bd : Vec} (h : ∀ p ∈ S, p.1.length = bd.length)
    (j : Nat) : (lub S bd).getD j 0 = lub1 S j (bd.getD j 0) := by
  induction S generalizing bd with
  | nil => rfl
  | cons p S ih =>
    have h1 := boundRow_length p.2 (h p (by simp))
    have := ih (bd := boundRow p.1 p.2 bd) (fun q hq => by rw [h1]; exact h q (by simp [hq]))
    simp only [lub, lub1, List.foldl_cons] at this ⊢
    rw [this, boundRow_getD _ (h p (by simp))]

theorem lub1_le (S : List (Vec × Int)) (j : Nat) (m : Int) :
    lub1 S j m ≤ m ∧ ∀ p ∈ S, p.1.getD j 0 ≠ 0 → lub1 S j m ≤ p.2 := by
  induction S generalizing m with
  | nil => simp [lub1]
  | cons p S ih =>
    simp only [lub1, List.foldl_cons]
    obtain ⟨h1, h2⟩ := ih (if p.1.getD j 0 ≠ 0 then min m p.2 else m)
    simp only [lub1] at h1 h2
    refine ⟨?_, ?_⟩
    · refine le_trans h1 ?_
      split <;> omega
    · intro q hq hne
      rcases List.mem_cons.1 hq with rfl | hq
      · rw [if_pos hne] at h1 ⊢; omega
      · exact h2 q hq hne

theorem lub1_attained (S : List (Vec × Int)) (j : Nat) (m : Int) :
    lub1 S j m = m ∨ ∃ p ∈ S, p.1.getD j 0 ≠ 0 ∧ lub1 S j m = p.2 := by
  induction S generalizing m with
  | nil => simp [lub1]
  | cons p S ih =>
    simp only [lub1, List.foldl_cons]
    rcases ih (if p.1.getD j 0 ≠ 0 then min m p.2 else m) with h | ⟨q, hq, h1, h2⟩
    · simp only [lub1] at h
      rw [h]
      by_cases hne : p.1.getD j 0 ≠ 0
      · rw [if_pos hne]
        rcases min_choice m p.2 with h3 | h3
        · left; exact h3
        · right; exact ⟨p, by simp, hne, h3⟩
      · rw [if_neg hne]; left; rfl
    · right; exact ⟨q, by simp [hq], h1, h2⟩

theorem lub1_fix {S : List (Vec × Int)} {j : Nat} {m : Int}
    (h : ∀ p ∈ S, p.1.getD j 0 ≠ 0 → m ≤ p.2) : lub1 S j m = m := by
  have h1 := (lub1_le S j m).1
  rcases lub1_attained S j m with h2 | ⟨p, hp, h3, h4⟩
  · exact h2
  · have := h p hp h3; omega

theorem ext_getD {x y : Vec} (hl : x.length = y.length) (h : ∀ j, x.getD j 0 = y.getD j 0) :
    x = y := by
  apply List.ext_getElem hl
  intro j h1 h2
  have := h j
  rwa [List.getD_eq_getElem _ _ h1, List.getD_eq_getElem _ _ h2] at this

theorem lub_idem {S : List (Vec × Int)} {bd : Vec} (h : ∀ p ∈ S, p.1.length = bd.length) :
    lub S (lub S bd) = lub S bd := by
  have hl := lub_length h
  have h' : ∀ p ∈ S, p.1.length = (lub S bd).length := fun p hp => by rw [hl]; exact h p hp
  apply ext_getD
  · rw [lub_length h']
  · intro j
    rw [lub_getD h', lub_getD h]
    exact lub1_fix (lub1_le S j _).2

theorem forall₂_of_getD {α : Type} {P : α → α → Prop} (d : α) {x y : List α}
    (hl : x.length = y.length) (h : ∀ j < x.length, P (x.getD j d) (y.getD j d)) :
    List.Forall₂ P x y := by
  rw [List.forall₂_iff_get]
  refine ⟨hl, ?_⟩
  intro i h1 h2
  have := h i h1
  rwa [List.getD_eq_getElem _ _ h1, List.getD_eq_getElem _ _ h2] at this

theorem getD_of_forall₂ {α : Type} {P : α → α → Prop} (d : α) {x y : List α}
    (h : List.Forall₂ P x y) {j : Nat} (hj : j < x.length) : P (x.getD j d) (y.getD j d) := by
  have hl := h.length_eq
  rw [List.forall₂_iff_get] at h
  rw [List.getD_eq_getElem _ _ hj, List.getD_eq_getElem _ _ (hl ▸ hj)]
  exact h.2 j hj (hl ▸ hj)

/-- No admissible value is excluded. -/
theorem lub_keeps {S : List (Vec × Int)} {bd x : Vec} (h : ∀ p ∈ S, p.1.length = bd.length)
    (hbin : ∀ p ∈ S, Bin p.1) (hx : List.Forall₂ (fun a b => 0 ≤ a ∧ a ≤ b) x bd)
    (hle : ∀ p ∈ S, dot p.1 x ≤ p.2) :
    List.Forall₂ (fun a b => 0 ≤ a ∧ a ≤ b) x (lub S bd) := by
  have hl := hx.length_eq
  have hnn : ∀ a ∈ x, 0 ≤ a := by
    intro a ha
    obtain ⟨i, hi, rfl⟩ := List.getElem_of_mem ha
    have := (getD_of_forall₂ 0 hx hi).1
    rwa [List.getD_eq_getElem _ _ hi] at this
  refine forall₂_of_getD 0 (by rw [lub_length h, hl]) ?_
  intro j hj
  have h0 := getD_of_forall₂ 0 hx hj
  refine ⟨h0.1, ?_⟩
  rw [lub_getD h]
  rcases lub1_attained S j (bd.getD j 0) with h1 | ⟨p, hp, h1, h2⟩
  · rw [h1]; exact h0.2
  · rw [h2]
    have h3 := getD_mul_le_dot (hbin p hp).nonneg hnn j
    have h4 : p.1.getD j 0 = 1 := by
      rcases (hbin p hp).getD j with h5 | h5
      · exact absurd h5 h1
      · exact h5
    rw [h4, one_mul] at h3
    exact h3.trans (hle p hp)

theorem lub_le {S : List (Vec × Int)} {bd : Vec} (h : ∀ p ∈ S, p.1.length = bd.length) :
    List.Forall₂ (· ≤ ·) (lub S bd) bd := by
  refine forall₂_of_getD 0 (lub_length h) ?_
  intro j _
  rw [lub_getD h]; exact (lub1_le S j _).1

theorem lub_mem {S : List (Vec × Int)} {bd : Vec} {P : Int → Prop}
    (h : ∀ p ∈ S, p.1.length = bd.length) (h1 : ∀ a ∈ bd, P a) (h2 : ∀ p ∈ S, P p.2) :
    ∀ a ∈ lub S bd, P a := by
  intro a ha
  obtain ⟨j, hj, rfl⟩ := List.getElem_of_mem ha
  have e : (lub S bd)[j] = lub1 S j (bd.getD j 0) := by
    rw [← lub_getD h, List.getD_eq_getElem _ _ hj]
  rw [e]
  have hj' : j < bd.length := by rw [lub_length h] at hj; exact hj
  rcases lub1_attained S j (bd.getD j 0) with h3 | ⟨p, hp, _, h3⟩
  · rw [h3, List.getD_eq_getElem _ _ hj']; exact h1 _ (List.getElem_mem _)
  · rw [h3]; exact h2 p hp

/-! ### rows with one element -/

theorem mem_dictSet {d : List (Nat × Nat)} {c r : Nat} {p : Nat × Nat}
    (h : p ∈ dictSet d c r) : p = (c, r) ∨ p ∈ d := by
  induction d with
  | nil => simpa [dictSet] using h
  | cons q d ih =>
    obtain ⟨c', r'⟩ := q
    rw [dictSet] at h
    split at h
    · rcases List.mem_cons.1 h with h | h
      · exact Or.inl h
      · exact Or.inr (by simp [h])
    · rcases List.mem_cons.1 h with h | h
      · exact Or.inr (by simp [h])
      · rcases ih h with h | h
        · exact Or.inl h
        · exact Or.inr (by simp [h])

theorem dictSet_keys {d : List (Nat × Nat)} {c r k : Nat} :
    k ∈ (dictSet d c r).map Prod.fst ↔ k = c ∨ k ∈ d.map Prod.fst := by
  induction d with
  | nil => simp [dictSet]
  | cons q d ih =>
    obtain ⟨c', r'⟩ := q
    rw [dictSet]
    split
    · next h => subst h; simp
    · simp only [List.map_cons, List.mem_cons, ih]
      constructor
      · rintro (h | h | h) <;> simp [h]
      · rintro (h | h | h) <;> simp [h]

theorem dictSet_nodup {d : List (Nat × Nat)} {c r : Nat} (h : (d.map Prod.fst).Nodup) :
    ((dictSet d c r).map Prod.fst).Nodup := by
  induction d with
  | nil => simp [dictSet]
  | cons q d ih =>
    obtain ⟨c', r'⟩ := q
    rw [dictSet]
    simp only [List.map_cons, List.nodup_cons] at h
    split
    · next hc => subst hc; simpa using h
    · next hc =>
      simp only [List.map_cons, List.nodup_cons]
      refine ⟨?_, ih h.2⟩
      rw [dictSet_keys]
      rintro (h1 | h1)
      · exact hc h1
      · exact h.1 h1

/-- What `only_1_element_in_row` needs of the pairs. -/
structure RcsOK (A : Mat) (rcs : List (Nat × Nat)) : Prop where
  row : ∀ rc ∈ rcs, rc.1 < A.length ∧ npWhere (fun x => x != 0) (A.getD rc.1 []) = [rc.2]
  nodup : (rcs.map Prod.snd).Nodup

theorem oneElementRowLocs_ok (A : Mat) : RcsOK A (oneElementRowLocs A) := by
  have key : ∀ (l : List (Vec × Nat)) (d : List (Nat × Nat)),
      (∀ p ∈ l, p.2 < A.length ∧ A.getD p.2 [] = p.1) →
      (∀ q ∈ d, q.2 < A.length ∧ npWhere (fun x => x != 0) (A.getD q.2 []) = [q.1]) →
      (d.map Prod.fst).Nodup →
      (∀ q ∈ l.foldl (fun d p => match npWhere (fun x => x != 0) p.1 with
          | [c] => dictSet d c p.2
          | _ => d) d,
        q.2 < A.length ∧ npWhere (fun x => x != 0) (A.getD q.2 []) = [q.1]) ∧
      ((l.foldl (fun d p => match npWhere (fun x => x != 0) p.1 with
          | [c] => dictSet d c p.2
          | _ => d) d).map Prod.fst).Nodup := by
    intro l
    induction l with
    | nil => intro d _ h2 h3; exact ⟨h2, h3⟩
    | cons p l ih =>
      intro d h1 h2 h3
      simp only [List.foldl_cons]
      have hp := h1 p (by simp)
      have hl := fun q hq => h1 q (List.mem_cons_of_mem p hq)
      split
      · next c hc =>
        refine ih _ hl ?_ (dictSet_nodup h3)
        intro q hq
        rcases mem_dictSet hq with rfl | hq
        · exact ⟨hp.1, by rw [hp.2]; exact hc⟩
        · exact h2 q hq
      · exact ih _ hl h2 h3
  have hz : ∀ p ∈ A.zipIdx, p.2 < A.length ∧ A.getD p.2 [] = p.1 := by
    intro p hp
    have := List.mem_zipIdx hp
    simp only [Nat.zero_le, Nat.zero_add, Nat.sub_zero, true_and] at this
    refine ⟨this.1, ?_⟩
    rw [List.getD_eq_getElem _ _ this.1]; exact this.2.symm
  obtain ⟨h1, h2⟩ := key A.zipIdx [] hz (by simp) (by simp)
  unfold oneElementRowLocs
  constructor
  · intro rc hrc
    obtain ⟨q, hq, rfl⟩ := List.mem_map.1 hrc
    exact h1 q hq
  · rw [List.map_map]
    exact h2

/-- A row with a single nonzero entry. -/
theorem dot_single {row x : Vec} {c : Nat} (hb : Bin row)
    (h : npWhere (fun x => x != 0) row = [c]) (hl : row.length = x.length) :
    dot row x = x.getD c 0 ∧ c < row.length ∧ row.getD c 0 = 1 := by
  have hc : c ∈ npWhere (fun x => x != 0) row := by rw [h]; simp
  rw [mem_npWhere] at hc
  have h1 : row.getD c 0 = 1 := by
    rcases hb.getD c with h2 | h2
    · rw [h2] at hc; simp at hc
    · exact h2
  have hz : ∀ j, j ≠ c → row.getD j 0 = 0 := by
    intro j hj
    by_contra hne
    have hjl : j < row.length := by
      by_contra hjl
      exact hne (List.getD_eq_default _ _ (by omega))
    have : j ∈ npWhere (fun x => x != 0) row := by
      rw [mem_npWhere]; exact ⟨hjl, by simpa using hne⟩
    rw [h] at this
    exact hj (by simpa using this)
  refine ⟨?_, hc.1, h1⟩
  have h2 := dot_npDelete (ids := [c]) (r := row) (x := x) (by simp)
    (by intro d hd; rw [List.mem_singleton] at hd; subst hd; rw [← hl]; exact hc.1) hl
  have h3 : dot (npDelete [c] row) (npDelete [c] x) = 0 := by
    have : ∀ a ∈ npDelete [c] row, a = 0 := by
      intro a ha
      have key : ∀ (l : Vec) (i : Nat), (∀ j, i + j ≠ c → l.getD j 0 = 0) →
          ∀ a ∈ deleteFrom [c] i l, a = 0 := by
        intro l
        induction l with
        | nil => intro i _ a ha; simp at ha
        | cons b l ih =>
          intro i hl a ha
          have hl' : ∀ j, i + 1 + j ≠ c → l.getD j 0 = 0 := by
            intro j hj
            have := hl (j + 1) (by omega)
            simpa using this
          rw [deleteFrom_cons] at ha
          split at ha
          · exact ih (i + 1) hl' a ha
          · next hi =>
            rcases List.mem_cons.1 ha with rfl | ha
            · have := hl 0 (by simpa using hi)
              simpa using this
            · exact ih (i + 1) hl' a ha
      exact key row 0 (fun j hj => hz j (by omega)) a ha
    generalize npDelete [c] row = r' at this
    generalize npDelete [c] x = x'
    induction r' generalizing x' with
    | nil => simp
    | cons a r' ih =>
      cases x' with
      | nil => simp
      | cons b x' =>
        rw [dot_cons, this a (by simp), ih (fun a ha => this a (by simp [ha]))]; ring
  rw [h3] at h2
  simp only [List.map_cons, List.map_nil, List.sum_cons, List.sum_nil, h1] at h2
  omega

end Bounds

end TDS
