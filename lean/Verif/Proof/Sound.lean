import Verif.Props.Search
import Mathlib.Algebra.Order.BigOperators.Group.Finset

/-! What can be said about finished matrices. -/

namespace TDS

open Finset

theorem sum_eq_range (r : Vec) : r.sum = ∑ t ∈ range r.length, r.getD t 0 := by
  rw [← list_sum_range]
  congr 1
  apply List.ext_getElem (by simp)
  intro i h1 h2
  rw [List.getElem_map, List.getElem_range, List.getD_eq_getElem _ _ h1]

theorem meet_eq_range (r s : Vec) :
    Spec.meet r s = ∑ t ∈ range r.length, r.getD t 0 * s.getD t 0 := by
  unfold Spec.meet; rw [list_sum_range]

theorem meet_comm {r s : Vec} (h : r.length = s.length) : Spec.meet r s = Spec.meet s r := by
  rw [meet_eq_range, meet_eq_range, h]
  exact Finset.sum_congr rfl (fun t _ => mul_comm _ _)

theorem sum_window {v a b : Nat} (hab : a ≤ b) (hb : b ≤ v) :
    ∑ t ∈ range v, (if a ≤ t ∧ t < b then (1 : Int) else 0) = (b : Int) - a := by
  rw [Finset.sum_boole]
  have : (range v).filter (fun t => a ≤ t ∧ t < b) = Finset.Ico a b := by
    ext t
    simp only [Finset.mem_filter, Finset.mem_range, Finset.mem_Ico]
    omega
  rw [this, Nat.card_Ico]
  omega

theorem seed0_sum {v : Nat} {k : Int} (h0 : 0 ≤ k) (hk : k < v) : (seed0 v k).sum = k := by
  rw [sum_eq_range, seed0_length]
  have : ∀ t ∈ range v, (seed0 v k).getD t 0 = if 1 ≤ t ∧ t < (k + 1).toNat then 1 else 0 := by
    intro t ht
    rw [Finset.mem_range] at ht
    rw [seed0_getD ht, pyIdx_nonneg (by omega)]
    by_cases c : 1 ≤ t ∧ t < (k + 1).toNat
    · rw [if_pos c, if_pos (by omega)]
    · rw [if_neg c, if_neg (by omega)]
  rw [Finset.sum_congr rfl this, sum_window (by omega) (by omega)]
  omega

theorem seed1_entry {v : Nat} {k l : Int} (hl : 0 ≤ l) (hlk : l < k) (hv : 2 * k - l ≤ v)
    {t : Nat} (ht : t < v) : (seed1 v k l).getD t 0 =
      (if t < 1 then 1 else 0) + (if 2 ≤ t ∧ t < (l + 2).toNat then 1 else 0) +
        (if (k + 1).toNat ≤ t ∧ t < (2 * k - l).toNat then 1 else 0) := by
  by_cases h0 : t = 0
  · subst h0
    rw [seed1_getD_zero ht]
    by_cases h2 : 2 ≤ v
    · rw [seed0_getD (by omega), pyIdx_nonneg (by omega), if_pos (by omega), if_pos (by omega),
        if_neg (by omega), if_neg (by omega)]
      rfl
    · omega
  · rw [seed1_getD ht (by omega) h0, pyIdx_nonneg (by omega), pyIdx_nonneg (by omega),
      pyIdx_nonneg (by omega), if_neg (show ¬ t < 1 by omega)]
    by_cases c1 : 2 ≤ t ∧ t < (l + 2).toNat
    · rw [if_pos c1, if_pos (by omega), if_neg (by omega)]; rfl
    · rw [if_neg c1]
      by_cases c2 : (k + 1).toNat ≤ t ∧ t < (2 * k - l).toNat
      · rw [if_pos c2, if_pos (by omega)]; rfl
      · rw [if_neg c2, if_neg (by omega)]; rfl

theorem seed1_sum {v : Nat} {k l : Int} (hl : 0 ≤ l) (hlk : l < k) (hkv : k < v)
    (hv : 2 * k - l ≤ v) : (seed1 v k l).sum = k := by
  rw [sum_eq_range, seed1_length]
  rw [Finset.sum_congr rfl (fun t ht => seed1_entry hl hlk hv (Finset.mem_range.1 ht)),
    Finset.sum_add_distrib, Finset.sum_add_distrib, sum_window (by omega) (by omega),
    sum_window (by omega) (by omega)]
  have := sum_window (v := v) (a := 0) (b := 1) (by omega) (by omega)
  simp only [Nat.zero_le, true_and] at this
  rw [this]
  omega

theorem seed_meet {v : Nat} {k l : Int} (hl : 0 ≤ l) (hlk : l < k) (hkv : k < v)
    (hv : 2 * k - l ≤ v) : Spec.meet (seed0 v k) (seed1 v k l) = l := by
  rw [meet_eq_range, seed0_length]
  have : ∀ t ∈ range v, (seed0 v k).getD t 0 * (seed1 v k l).getD t 0 =
      if 2 ≤ t ∧ t < (l + 2).toNat then 1 else 0 := by
    intro t ht
    rw [Finset.mem_range] at ht
    rw [seed0_getD ht, seed1_entry hl hlk hv ht, pyIdx_nonneg (by omega)]
    by_cases c : 2 ≤ t ∧ t < (l + 2).toNat
    · rw [if_pos c, if_pos (by omega), if_neg (by omega), if_neg (by omega)]; rfl
    · rw [if_neg c]
      by_cases c1 : 1 ≤ t ∧ t < min (k + 1).toNat v
      · rw [if_pos c1, if_neg (by omega), if_neg (by omega)]; rfl
      · rw [if_neg c1, zero_mul]
  rw [Finset.sum_congr rfl this, sum_window (by omega) (by omega)]
  omega

/-- Parameters for which the seed makes sense. -/
structure Good (v : Nat) (k l u : Int) : Prop where
  v3 : 3 ≤ v
  v66 : v ≤ 66
  l0 : 0 ≤ l
  lk : l < k
  kv : k < v
  room : 2 * k - l ≤ v
  count : ((v : Int) - k - 1) * u = k * (k - l - 1)
  degenerate : (v : Int) = k + 1 → u = 0

theorem Good.u_bound {v : Nat} {k l u : Int} (h : Good v k l u) : 0 ≤ u ∧ u ≤ k := by
  by_cases hd : (v : Int) = k + 1
  · have := h.degenerate hd
    have h1 := h.l0
    have h2 := h.lk
    omega
  · have h1 := h.l0
    have h2 := h.lk
    have h3 := h.kv
    have h4 := h.room
    have hpos : 0 < (v : Int) - k - 1 := by omega
    constructor
    · have : 0 ≤ ((v : Int) - k - 1) * u := by
        rw [h.count]; exact mul_nonneg (by omega) (by omega)
      by_contra hneg
      have : ((v : Int) - k - 1) * u < 0 := mul_neg_of_pos_of_neg hpos (by omega)
      omega
    · have : ((v : Int) - k - 1) * u ≤ ((v : Int) - k - 1) * k := by
        rw [h.count, mul_comm]
        exact mul_le_mul_of_nonneg_right (by omega) (by omega)
      exact le_of_mul_le_mul_left this hpos

theorem Good.vals {v : Nat} {k l u : Int} (h : Good v k l u) :
    Vals v k l u [seed0 v k, seed1 v k l] := by
  have hv3 := h.v3
  have h1 := h.l0
  have h2 := h.lk
  have h3 := h.kv
  have h4 := h.v66
  have hu := h.u_bound
  refine Params.vals ⟨?_, ?_, h.count, h.degenerate, hu.1, by omega⟩
    (seed_part (by omega) k l) (by simp) h.v66
  · exact seed0_sum (by omega) h3
  · exact seed_meet h1 h2 h3 h.room

/-- Rows at most `k`, and pairs meeting at most as often as required. -/
structure PairLE (k l u : Int) (m : Mat) : Prop where
  sum : ∀ r ∈ m, r.sum ≤ k
  meet : ∀ i j, i < j → j < m.length →
    Spec.meet (m.getD i []) (m.getD j []) ≤ if Spec.ent m i j = 1 then l else u

theorem pairLE_snoc {k l u : Int} {m : Mat} {row : Vec} (h : PairLE k l u m)
    (hr : Spec.RowLE k l u m row) : PairLE k l u (m ++ [row]) := by
  have gl : ∀ i < m.length, (m ++ [row]).getD i [] = m.getD i [] := by
    intro i hi
    rw [List.getD_eq_getElem?_getD, List.getElem?_append_left hi, List.getD_eq_getElem?_getD]
  refine ⟨?_, ?_⟩
  · intro r hr'
    rcases List.mem_append.1 hr' with h' | h'
    · exact h.sum r h'
    · rw [List.mem_singleton.1 h']; exact hr.1
  · intro i j hij hj
    rw [List.length_append, List.length_singleton] at hj
    rw [gl i (by omega), ent_append_left (by omega)]
    by_cases hjm : j < m.length
    · rw [gl j hjm]; exact h.meet i j hij hjm
    · obtain rfl : j = m.length := by omega
      have : (m ++ [row]).getD m.length [] = row := by
        simp [List.getD_eq_getElem?_getD]
      rw [this]
      exact hr.2 i hij

theorem pairLE_seed {v : Nat} {k l u : Int} (h : Good v k l u) :
    PairLE k l u [seed0 v k, seed1 v k l] := by
  have hv3 := h.v3
  have h1 := h.l0
  have h2 := h.lk
  refine ⟨?_, ?_⟩
  · intro r hr
    simp only [List.mem_cons, List.not_mem_nil, or_false] at hr
    rcases hr with rfl | rfl
    · rw [seed0_sum (by omega) h.kv]
    · rw [seed1_sum h1 h2 h.kv h.room]
  · intro i j hij hj
    simp only [List.length_cons, List.length_nil] at hj
    obtain ⟨rfl, rfl⟩ : i = 0 ∧ j = 1 := by omega
    have e : Spec.ent [seed0 v k, seed1 v k l] 0 1 = 1 := by
      show (seed0 v k).getD 1 0 = 1
      rw [seed0_getD (by omega), pyIdx_nonneg (by omega), if_pos (by omega)]
    rw [e, if_pos rfl]
    exact le_of_eq (seed_meet h1 h2 h.kv h.room)

theorem output_pairLE {v : Nat} {k l u : Int} (h : Good v k l u) {out : List Mat}
    (ho : IsOutput v k l u out) : ∀ m ∈ out, PairLE k l u m := by
  intro m hm
  obtain ⟨-, -, -, -, h3⟩ := ho.induction h.v3 h.v66
    (I := fun m => Spec.Adjacent v m ∧ Vals v k l u m ∧ PairLE k l u m)
    ⟨seed_adjacent (by have := h.v3; omega) k l, h.vals, pairLE_seed h⟩ (by
      intro m hp h2 hlt ⟨ha, hva, hpl⟩ m' hm'
      refine ⟨adjacent_adv hp h2 hlt h.v66 ha hm', ?_⟩
      obtain ⟨x, rfl, -, -, hx⟩ := (adv_ext hp h2 hlt h.v66 hm').ex
      exact ⟨vals_snoc h2 _ hva, pairLE_snoc hpl ((hx ha).2 k l u hva)⟩) m hm
  exact h3

theorem isAdj_row {v : Nat} {m : Mat} (h : Spec.IsAdj v m) {i : Nat} (hi : i < v) :
    m.getD i [] ∈ m ∧ (m.getD i []).length = v := by
  have hl : i < m.length := by rw [h.square]; exact hi
  have hm : m.getD i [] ∈ m := by rw [List.getD_eq_getElem _ _ hl]; exact List.getElem_mem _
  exact ⟨hm, h.part.rect _ hm⟩

theorem ent_bin {v : Nat} {m : Mat} (h : Spec.Part v m) (i j : Nat) :
    Spec.ent m i j = 0 ∨ Spec.ent m i j = 1 := by
  unfold Spec.ent
  by_cases hi : i < m.length
  · exact Bin.getD (h.bin _ (by rw [List.getD_eq_getElem _ _ hi]; exact List.getElem_mem _)) j
  · have : m.getD i [] = [] := List.getD_eq_default _ _ (by omega)
    rw [this]; simp

/-- If all rows have `k` ones, the inequalities are equalities. -/
theorem srg_of_pairLE {v : Nat} {k l u : Int} {m : Mat} (ha : Spec.IsAdj v m)
    (hp : PairLE k l u m) (hc : ((v : Int) - k - 1) * u = k * (k - l - 1))
    (hd : ∀ r ∈ m, r.sum = k) : Spec.IsSRG v k l u m := by
  refine ⟨ha, hd, ?_⟩
  have hle : ∀ i < v, ∀ j < v, i ≠ j → Spec.meet (m.getD i []) (m.getD j []) ≤
      if Spec.ent m i j = 1 then l else u := by
    intro i hi j hj hij
    rcases Nat.lt_or_ge i j with h | h
    · exact hp.meet i j h (by rw [ha.square]; exact hj)
    · rw [meet_comm (by rw [(isAdj_row ha hi).2, (isAdj_row ha hj).2]),
        ha.sym.sym i (by rw [ha.square]; exact hi) j (by rw [ha.square]; exact hj)]
      exact hp.meet j i (by omega) (by rw [ha.square]; exact hi)
  have hdeg : ∀ i < v, ∑ t ∈ range v, Spec.ent m i t = k := by
    intro i hi
    obtain ⟨h1, h2⟩ := isAdj_row ha hi
    rw [← hd _ h1, sum_eq_range, h2]
    rfl
  have hmeet : ∀ i < v, ∀ j, Spec.meet (m.getD i []) (m.getD j []) =
      ∑ t ∈ range v, Spec.ent m i t * Spec.ent m j t := by
    intro i hi j
    rw [meet_eq_range, (isAdj_row ha hi).2]
    rfl
  intro i hi j hj hij
  -- compare sums over all `j`
  have hsum : ∑ j ∈ range v, Spec.meet (m.getD i []) (m.getD j []) = k * k := by
    rw [Finset.sum_congr rfl (fun j _ => hmeet i hi j), Finset.sum_comm]
    have : ∀ t ∈ range v, ∑ j ∈ range v, Spec.ent m i t * Spec.ent m j t =
        Spec.ent m i t * k := by
      intro t ht
      rw [Finset.mem_range] at ht
      rw [← Finset.mul_sum, ← hdeg t ht]
      congr 1
      apply Finset.sum_congr rfl
      intro j hj
      rw [Finset.mem_range] at hj
      exact ha.sym.sym _ (by rw [ha.square]; exact hj) _ (by rw [ha.square]; exact ht)
    rw [Finset.sum_congr rfl this, ← Finset.sum_mul, hdeg i hi]
  have hself : Spec.meet (m.getD i []) (m.getD i []) = k := by
    rw [hmeet i hi, ← hdeg i hi]
    apply Finset.sum_congr rfl
    intro t _
    rcases ent_bin ha.part i t with h | h <;> rw [h] <;> rfl
  let tgt : Nat → Int := fun j => if j = i then k else if Spec.ent m i j = 1 then l else u
  have htgt : ∑ j ∈ range v, tgt j = k * k := by
    have e : ∀ j ∈ range v, tgt j =
        Spec.ent m i j * (l - u) + u + if j = i then k - u else 0 := by
      intro j _
      show (if j = i then k else if Spec.ent m i j = 1 then l else u) = _
      by_cases h0 : j = i
      · subst h0
        rw [if_pos rfl, if_pos rfl, ha.sym.diag j (by rw [ha.square]; exact hi)]
        omega
      · rw [if_neg h0, if_neg h0]
        rcases ent_bin ha.part i j with h | h <;> rw [h] <;> simp
    rw [Finset.sum_congr rfl e, Finset.sum_add_distrib, Finset.sum_add_distrib, ← Finset.sum_mul,
      hdeg i hi, Finset.sum_ite_eq' (range v) i, if_pos (Finset.mem_range.2 hi)]
    simp
    linarith
  have hall : ∀ j ∈ range v, Spec.meet (m.getD i []) (m.getD j []) ≤ tgt j := by
    intro j hj
    rw [Finset.mem_range] at hj
    show _ ≤ (if j = i then k else if Spec.ent m i j = 1 then l else u)
    by_cases h0 : j = i
    · subst h0; rw [if_pos rfl]; exact le_of_eq hself
    · rw [if_neg h0]; exact hle i hi j hj (Ne.symm h0)
  have heq := (Finset.sum_eq_sum_iff_of_le hall).1 (by rw [hsum, htgt]) j (Finset.mem_range.2 hj)
  have : tgt j = if Spec.ent m i j = 1 then l else u := if_neg (Ne.symm hij)
  rw [heq, this]

/-- With no unknown left, an unsatisfied equation is noticed. -/
theorem solveQuestion_zero {Q : Question} (hc : ncols Q.A = 0) (hb : Q.b.any (· != 0) = true) :
    solveQuestion Q = .ok [] := by
  have h1 : reduceCol Q = .error .noSolution := by
    unfold reduceCol reduceColBody
    rw [if_pos (by omega)]
    simp only [ok_bind]
    unfold checkAfter
    simp [hc, hb]
  have h2 : reducePass Q = .error .noSolution := by
    unfold reducePass
    rw [h1]; rfl
  have h3 : visit Q = .ok ([], []) := by
    unfold visit reduceFuel reduceLoop
    rw [h2]; rfl
  unfold solveQuestion solveTree
  rw [h3]
  rfl

/-- The last row satisfies its conditions exactly. -/
theorem last_row_exact {v : Nat} {k l u : Int} {m m' : Mat} (h : Spec.Part v m)
    (h2 : 2 ≤ m.length) (hlt : m.length + 1 = v) (hv : v ≤ 66) (hva : Vals v k l u m)
    (hm : m' ∈ adv m) : Spec.RowOK k l u m (m'.getD m.length []) := by
  have hlt' : m.length < v := by omega
  have hn := questionOf_ncols h h2
  obtain ⟨x, hx, hxl, -, -⟩ := (adv_ext h h2 hlt' hv hm).ex
  have hx0 : x = [] := List.length_eq_zero_iff.1 (by omega)
  have e : m'.getD m.length [] = Spec.nextRow m x := by
    rw [hx]; simp [List.getD_eq_getElem?_getD]
  rw [e, ← sat01_iff h h2 hlt' (by omega) hva hxl]
  have hfm := fromMatrix_eq h h2 hlt'
  have hs := solved_eq_false h h2 hlt'
  cases hany : (questionOf m).b.any (fun x => decide (x < 0)) with
  | true =>
    rw [hany] at hfm
    exfalso
    have : advance m = .ok [] := by
      unfold advance
      rw [hs, hfm]; rfl
    unfold adv at hm
    rw [this] at hm
    simp at hm
  | false =>
    rw [hany] at hfm
    simp only [Bool.false_eq_true, if_false] at hfm
    cases hb : (questionOf m).b.any (· != 0) with
    | true =>
      exfalso
      have : advance m = .ok [] := by
        unfold advance
        rw [hs, hfm]
        simp only [Bool.not_false, pyAssert_true, ok_bind]
        rw [solveQuestion_zero (by omega) hb]
        rfl
      unfold adv at hm
      rw [this] at hm
      simp at hm
    | false =>
      intro p hp
      rw [hx0]
      have hp2 := List.of_mem_zip (show (p.1, p.2) ∈ _ from hp)
      have := List.any_eq_false.1 hb p.2 hp2.2
      simp only [bne_iff_ne, ne_eq, Decidable.not_not] at this
      rw [this]
      cases p.1 <;> rfl

theorem output_last {v : Nat} {k l u : Int} (h : Good v k l u) {out : List Mat}
    (ho : IsOutput v k l u out) : ∀ m ∈ out,
      Spec.RowOK k l u (m.take (v - 1)) (m.getD (v - 1) []) := by
  intro m hm
  have hv3 := h.v3
  obtain ⟨-, h2, -, h3⟩ := ho.induction h.v3 h.v66
    (I := fun m => Vals v k l u m ∧
      (m.length = v → Spec.RowOK k l u (m.take (v - 1)) (m.getD (v - 1) [])))
    ⟨h.vals, by intro e; simp at e; omega⟩ (by
      intro m hp h2 hlt ⟨hva, _⟩ m' hm'
      obtain ⟨x, hx, -⟩ := (adv_ext hp h2 hlt h.v66 hm').ex
      refine ⟨by rw [hx]; exact vals_snoc h2 _ hva, ?_⟩
      intro e
      have e' : m.length + 1 = v := by rw [hx] at e; simpa using e
      have := last_row_exact hp h2 e' h.v66 hva hm'
      have e1 : m'.take (v - 1) = m := by
        rw [hx, show v - 1 = m.length by omega, List.take_append_of_le_length (le_refl _),
          List.take_length]
      rw [e1, show v - 1 = m.length by omega]
      exact this) m hm
  exact h3 h2

end TDS
