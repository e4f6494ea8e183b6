import Verif.Proof.Exact

/-! Results of the search as chains of steps, and numberings of the cocktail party graph. -/

namespace TDS

open Finset

theorem mapM_mem {α β : Type} {f : α → Res β} {l : List α} {l' : List β} (h : l.mapM f = .ok l')
    {b : β} (hb : b ∈ l') : ∃ a ∈ l, f a = .ok b := by
  induction l generalizing l' with
  | nil =>
    rw [List.mapM_nil] at h
    cases h
    simp at hb
  | cons a l ih =>
    rw [List.mapM_cons, bind_eq_ok] at h
    obtain ⟨x, hx, h⟩ := h
    rw [bind_eq_ok] at h
    obtain ⟨xs, hxs, h⟩ := h
    cases h
    rcases List.mem_cons.1 hb with rfl | hb
    · exact ⟨a, by simp, hx⟩
    · obtain ⟨a', h1, h2⟩ := ih hxs hb
      exact ⟨a', by simp [h1], h2⟩

/-- `m` arises from `s` by appending rows, each of them a result of `advance`. -/
inductive Chain (s : Mat) : Mat → Prop
  | refl : Chain s s
  | step {m m' : Mat} : Chain s m → m' ∈ adv m → Chain s m'

theorem adv_snoc {m m' : Mat} (h : m' ∈ adv m) : ∃ r, m' = m ++ [r] := by
  unfold adv at h
  split at h
  · next L hL =>
    unfold advance at hL
    rw [bind_eq_ok] at hL
    obtain ⟨-, -, hL⟩ := hL
    split at hL
    · cases hL; simp at h
    · cases hL
    · rw [bind_eq_ok] at hL
      obtain ⟨rows, -, hL⟩ := hL
      obtain ⟨x, -, hx⟩ := mapM_mem hL h
      unfold appendRow at hx
      simp only at hx
      split at hx
      · cases hx
      · rw [bind_eq_ok] at hx
        obtain ⟨-, -, hx⟩ := hx
        cases hx
        exact ⟨_, rfl⟩
  · simp at h

theorem solveLevels_chain {s : Mat} (n : Nat) : ∀ (lst out : List Mat), (∀ m ∈ lst, Chain s m) →
    solveLevels n lst = .ok out → ∀ m ∈ out, Chain s m := by
  induction n with
  | zero =>
    intro lst out hl h m hm
    cases lst with
    | nil => cases h; simp at hm
    | cons a t => cases h
  | succ n ih =>
    intro lst out hl h m hm
    cases lst with
    | nil => cases h; simp at hm
    | cons a t =>
      rw [solveLevels] at h
      · rw [bind_eq_ok] at h
        obtain ⟨next, hn, h⟩ := h
        rw [bind_eq_ok] at h
        obtain ⟨rest, hr, h⟩ := h
        cases h
        rcases List.mem_append.1 hm with hm | hm
        · exact hl m (List.mem_filter.1 hm).1
        · refine ih _ _ ?_ hr m hm
          intro m' hm'
          obtain ⟨L, hL, hm'⟩ := List.mem_flatten.1 hm'
          obtain ⟨b, hb, e⟩ := mapM_mem hn hL
          refine .step (hl b (List.mem_filter.1 hb).1) ?_
          unfold adv
          rw [e]
          exact hm'
      · simp

/-- Every result of the search is the end of a chain of steps; no size limit is needed for this. -/
theorem solve_chain {s : Mat} {out : List Mat} (h : solve s = .ok out) : ∀ m ∈ out, Chain s m := by
  unfold solve at h
  rw [bind_eq_ok] at h
  obtain ⟨lst, h1, h2⟩ := h
  refine solveLevels_chain _ _ _ ?_ h2
  intro m hm
  refine .step .refl ?_
  unfold adv
  rw [h1]
  exact hm

theorem Chain.take {s m : Mat} (h : Chain s m) : m.take s.length = s ∧ s.length ≤ m.length ∧
    ∀ R, s.length ≤ R → R < m.length → m.take (R + 1) ∈ adv (m.take R) := by
  induction h with
  | refl => exact ⟨List.take_length, le_refl _, fun R h1 h2 => by omega⟩
  | @step m m' hc hm ih =>
    obtain ⟨r, rfl⟩ := adv_snoc hm
    obtain ⟨h1, h2, h3⟩ := ih
    refine ⟨by rw [List.take_append_of_le_length h2, h1], by simp; omega, ?_⟩
    intro R hR hlt
    rw [List.length_append, List.length_singleton] at hlt
    by_cases hR' : R < m.length
    · rw [List.take_append_of_le_length hR', List.take_append_of_le_length hR'.le]
      exact h3 R hR hR'
    · obtain rfl : R = m.length := by omega
      rw [List.take_left, List.take_of_length_le (by simp)]
      exact hm

/-! ### the cocktail party graph -/

/-- Entries of the cocktail party graph on `2 * n` vertices: `i` and `2 * n - 1 - i` are not
adjacent. -/
def cp (n i j : Nat) : Int := if i = j ∨ i + j + 1 = 2 * n then 0 else 1

/-- In a row with `v - 2` ones and two known zeros every other entry is one. -/
theorem Arr.others {v : Nat} {l u : Int} {M : Nat → Nat → Int} (h : Arr v ((v : Int) - 2) l u M)
    {i z : Nat} (hi : i < v) (hz : z < v) (hzi : z ≠ i) (h0 : M i z = 0) :
    ∀ t < v, t ≠ i → t ≠ z → M i t = 1 := by
  have hs : ∑ t ∈ range v, (1 - M i t) = 2 := by
    rw [Finset.sum_sub_distrib, h.deg i hi]
    simp
  rw [← Finset.add_sum_erase _ _ (Finset.mem_range.2 hi), h.diag i hi,
    ← Finset.add_sum_erase _ _ (Finset.mem_erase.2 ⟨hzi, Finset.mem_range.2 hz⟩), h0] at hs
  have hs' : ∑ t ∈ ((range v).erase i).erase z, (1 - M i t) = 0 := by omega
  rw [Finset.sum_eq_zero_iff_of_nonneg (fun t _ => by rcases h.bin i t with e | e <;> omega)] at hs'
  intro t ht h1 h2
  have := hs' t (Finset.mem_erase.2 ⟨h2, Finset.mem_erase.2 ⟨h1, Finset.mem_range.2 ht⟩⟩)
  omega

theorem Arr.other {v : Nat} {l u : Int} {M : Nat → Nat → Int} (h : Arr v ((v : Int) - 2) l u M)
    {i : Nat} (hi : i < v) : ∃ z < v, z ≠ i ∧ M i z = 0 := by
  by_contra hno
  push Not at hno
  have hs : ∑ t ∈ range v, (1 - M i t) = 2 := by
    rw [Finset.sum_sub_distrib, h.deg i hi]
    simp
  rw [← Finset.add_sum_erase _ _ (Finset.mem_range.2 hi), h.diag i hi,
    Finset.sum_eq_zero] at hs
  · omega
  · intro t ht
    obtain ⟨h1, h2⟩ := Finset.mem_erase.1 ht
    have := hno t (Finset.mem_range.1 h2) h1
    rcases h.bin i t with e | e <;> omega

/-- A graph in which every vertex has exactly one non-neighbour has only one justified numbering. -/
theorem Arr.cocktail {n : Nat} {l u : Int} {M : Nat → Nat → Int}
    (h : Arr (2 * n) (((2 * n : Nat) : Int) - 2) l u M) {R₀ : Nat}
    (h0 : ∀ i < R₀, ∀ j < 2 * n, M i j = cp n i j)
    (hj : ∀ R, R₀ ≤ R → R < n → ∀ i j, R < i → i < j → j < 2 * n → (∀ r < R, M r i = M r j) →
      M R j ≤ M R i) : ∀ i < 2 * n, ∀ j < 2 * n, M i j = cp n i j := by
  intro R
  induction R using Nat.strong_induction_on with
  | _ R ih =>
    intro hR
    by_cases hR0 : R < R₀
    · exact h0 R hR0
    obtain ⟨z, hz, hzR, hz0⟩ := h.other hR
    have key : z + R + 1 = 2 * n := by
      by_cases hlt : z < R
      · have := ih z hlt hz R hR
        rw [h.sym z hz R hR, hz0] at this
        unfold cp at this
        split_ifs at this with hc <;> omega
      · have hgt : R < z := by omega
        have hle : z ≤ 2 * n - 1 - R := by
          by_contra hcon
          have hi' : 2 * n - 1 - z < R := by omega
          have e1 := ih _ hi' (by omega) z hz
          unfold cp at e1
          rw [if_pos (Or.inr (by omega)), h.sym _ (by omega) z hz] at e1
          have := h.others hz (z := 2 * n - 1 - z) (by omega) (by omega) e1 R hR (by omega) (by omega)
          rw [h.sym z hz R hR, hz0] at this
          omega
        by_contra hcon
        have e1 := hj R (by omega) (by omega) z (2 * n - 1 - R) hgt (by omega) (by omega) (by
          intro r hr
          rw [ih r hr (by omega) z hz, ih r hr (by omega) _ (by omega)]
          unfold cp
          rw [if_neg (by omega), if_neg (by omega)])
        have := h.others hR hz hzR hz0 (2 * n - 1 - R) (by omega) (by omega) (by omega)
        omega
    intro j hj'
    unfold cp
    split_ifs with hc
    · rcases hc with rfl | hc
      · exact h.diag _ hR
      · obtain rfl : j = z := by omega
        exact hz0
    · exact h.others hR hz hzR hz0 j hj' (by omega) (by omega)

theorem cp_adjacent {n R : Nat} : Spec.Adjacent (2 * n) (matOf (2 * n) (cp n) R) := by
  intro i j k hi hij hjk hk he
  rw [matOf_length] at hi
  rw [colEq_matOf (by omega) (by omega)] at he ⊢
  intro r hr
  have h1 := he r hr
  unfold cp at h1 ⊢
  by_cases hs : r + i + 1 = 2 * n
  · rw [if_pos (Or.inr hs), if_neg (by omega)] at h1
    omega
  · by_cases hs' : r + j + 1 = 2 * n
    · have h2 := he (2 * n - 1 - k) (by omega)
      unfold cp at h2
      rw [if_neg (by omega), if_pos (Or.inr (by omega))] at h2
      omega
    · rw [if_neg (by omega), if_neg (by omega)]

theorem sum_delta {v i : Nat} (hi : i < v) : ∑ t ∈ range v, (if t = i then (1 : Int) else 0) = 1 := by
  rw [Finset.sum_ite_eq' (range v) i, if_pos (Finset.mem_range.2 hi)]

theorem cp_eq {n i : Nat} (hi : i < 2 * n) (t : Nat) :
    cp n i t = 1 - (if t = i then 1 else 0) - (if t = 2 * n - 1 - i then 1 else 0) := by
  unfold cp
  split_ifs <;> omega

theorem cp_deg {n i : Nat} (hi : i < 2 * n) :
    ∑ t ∈ range (2 * n), cp n i t = ((2 * n : Nat) : Int) - 2 := by
  simp only [cp_eq hi, Finset.sum_sub_distrib, sum_delta hi,
    sum_delta (show 2 * n - 1 - i < 2 * n by omega)]
  simp
  omega

theorem cp_arr {n : Nat} :
    Arr (2 * n) (((2 * n : Nat) : Int) - 2) (((2 * n : Nat) : Int) - 4) (((2 * n : Nat) : Int) - 2)
      (cp n) := by
  refine ⟨fun i j => by unfold cp; split_ifs <;> simp, fun i _ => by simp [cp], ?_,
    fun i hi => cp_deg hi, ?_⟩
  · intro i _ j _
    unfold cp
    split_ifs <;> omega
  · intro i hi j hj hij
    by_cases hc : i + j + 1 = 2 * n
    · have e : ∀ t, cp n i t * cp n j t = cp n i t := by
        intro t
        unfold cp
        split_ifs <;> omega
      simp only [e]
      rw [cp_deg hi, if_neg (by unfold cp; split_ifs <;> omega)]
    · have e : ∀ t ∈ range (2 * n), cp n i t * cp n j t = cp n i t + cp n j t - 1 := by
        intro t _
        unfold cp
        split_ifs <;> omega
      rw [Finset.sum_congr rfl e, Finset.sum_sub_distrib, Finset.sum_add_distrib, cp_deg hi,
        cp_deg hj, if_pos (by unfold cp; split_ifs <;> omega)]
      simp
      omega

theorem isSRG_of_arr {v : Nat} {k l u : Int} {M : Nat → Nat → Int} (h : Arr v k l u M) :
    Spec.IsSRG v k l u (matOf v M v) := by
  rw [isSRG_iff]
  have e : ∀ i j : Fin v, Spec.ent (matOf v M v) i j = M i j := fun i j => ent_matOf i.2 j.2
  simp only [e]
  refine ⟨matOf_square v M, fun i j => h.bin i j, fun i => h.diag i i.2,
    fun i j => h.sym i i.2 j j.2, ?_, ?_⟩
  · intro i
    rw [← h.deg i i.2, Finset.sum_range]
  · intro i j hij
    rw [← h.inter i i.2 j j.2 (fun e => hij (Fin.ext e)), Finset.sum_range]

end TDS
