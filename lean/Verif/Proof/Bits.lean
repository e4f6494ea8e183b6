import Verif.Model.Modules
import Verif.Proof.Arrays
import Mathlib.Algebra.BigOperators.Intervals

/-! Checking a stored matrix row by row on binary numbers. -/

namespace TDS

namespace Database

/-- Number of ones among the lowest `n` binary digits. -/
def pop : Nat → Nat → Nat
  | 0, _ => 0
  | n + 1, x => x % 2 + pop n (x / 2)

/-- Row `i = r` against the rows `j, j+1, …`. -/
def checkRow (v l u i r : Nat) : Nat → List Nat → Bool
  | _, [] => true
  | j, s :: t =>
    (r.testBit (v - 1 - j) == s.testBit (v - 1 - i)) &&
    (pop v (r &&& s) == if r.testBit (v - 1 - j) then l else u) && checkRow v l u i r (j + 1) t

/-- Rows `i, i+1, …`. -/
def checkFrom (v k l u : Nat) : Nat → List Nat → Bool
  | _, [] => true
  | i, r :: t =>
    !r.testBit (v - 1 - i) && pop v r == k && checkRow v l u i r (i + 1) t &&
      checkFrom v k l u (i + 1) t

/-- The whole matrix. -/
def check (v k l u : Nat) (rows : List Nat) : Bool :=
  rows.length == v && checkFrom v k l u 0 rows

theorem pop_eq (n x : Nat) : (pop n x : Int) = ∑ t ∈ Finset.range n, if x.testBit t then 1 else 0 := by
  induction n generalizing x with
  | zero => rfl
  | succ n ih =>
    rw [pop, Finset.sum_range_succ', Nat.cast_add, ih, add_comm]
    congr 1
    · refine Finset.sum_congr rfl ?_
      intro t _
      rw [Nat.testBit_succ]
    · rw [Nat.testBit_zero]
      rcases Nat.mod_two_eq_zero_or_one x with h | h <;> simp [h]

theorem bitMat_square {v : Nat} {rows : List Nat} (h : rows.length = v) :
    Spec.Square v (bitMat v rows) := by
  constructor
  · simp [bitMat, h]
  · intro r hr
    obtain ⟨n, -, rfl⟩ := List.mem_map.1 hr
    simp [bitRow]

theorem bitMat_ent {v : Nat} {rows : List Nat} (h : rows.length = v) {i j : Nat} (hi : i < v)
    (hj : j < v) : Spec.ent (bitMat v rows) i j =
      if (rows.getD i 0).testBit (v - 1 - j) then 1 else 0 := by
  unfold Spec.ent bitMat
  rw [getD_map_lt (by omega) [] 0]
  unfold bitRow
  rw [getD_map_range hj]

theorem checkRow_spec {v l u i r : Nat} (j : Nat) (t : List Nat)
    (h : checkRow v l u i r j t = true) : ∀ p < t.length,
      r.testBit (v - 1 - (j + p)) = (t.getD p 0).testBit (v - 1 - i) ∧
      pop v (r &&& t.getD p 0) = if r.testBit (v - 1 - (j + p)) then l else u := by
  induction t generalizing j with
  | nil => intro p hp; simp at hp
  | cons s t ih =>
    unfold checkRow at h
    rw [Bool.and_eq_true, Bool.and_eq_true] at h
    obtain ⟨⟨h1, h2⟩, h3⟩ := h
    intro p hp
    cases p with
    | zero =>
      rw [List.getD_cons_zero]
      exact ⟨by simpa using h1, by simpa using h2⟩
    | succ p =>
      have := ih (j + 1) h3 p (by simpa using hp)
      rw [List.getD_cons_succ, show j + (p + 1) = j + 1 + p by omega]
      exact this

theorem checkFrom_spec {v k l u : Nat} (i : Nat) (t : List Nat)
    (h : checkFrom v k l u i t = true) : ∀ p < t.length,
      (t.getD p 0).testBit (v - 1 - (i + p)) = false ∧ pop v (t.getD p 0) = k ∧
      ∀ q, p < q → q < t.length →
        (t.getD p 0).testBit (v - 1 - (i + q)) = (t.getD q 0).testBit (v - 1 - (i + p)) ∧
        pop v (t.getD p 0 &&& t.getD q 0) =
          if (t.getD p 0).testBit (v - 1 - (i + q)) then l else u := by
  induction t generalizing i with
  | nil => intro p hp; simp at hp
  | cons r t ih =>
    unfold checkFrom at h
    rw [Bool.and_eq_true, Bool.and_eq_true, Bool.and_eq_true] at h
    obtain ⟨⟨⟨h1, h2⟩, h3⟩, h4⟩ := h
    intro p hp
    cases p with
    | zero =>
      rw [List.getD_cons_zero]
      refine ⟨by simpa using h1, by simpa using h2, ?_⟩
      intro q hq hq'
      obtain ⟨q, rfl⟩ := Nat.exists_eq_succ_of_ne_zero (by omega : q ≠ 0)
      have := checkRow_spec (i + 1) t h3 q (by simpa using hq')
      rw [List.getD_cons_succ, show i + (q + 1) = i + 1 + q by omega]
      exact this
    | succ p =>
      obtain ⟨g1, g2, g3⟩ := ih (i + 1) h4 p (by simpa using hp)
      rw [List.getD_cons_succ, show i + (p + 1) = i + 1 + p by omega]
      refine ⟨g1, g2, ?_⟩
      intro q hq hq'
      obtain ⟨q, rfl⟩ := Nat.exists_eq_succ_of_ne_zero (by omega : q ≠ 0)
      have := g3 q (by omega) (by simpa using hq')
      rw [List.getD_cons_succ, show i + (q + 1) = i + 1 + q by omega]
      exact this

theorem sum_bits (v x : Nat) :
    (∑ t : Fin v, if x.testBit (v - 1 - t) then (1 : Int) else 0) = pop v x := by
  rw [pop_eq, Fin.sum_univ_eq_sum_range (fun t => if x.testBit (v - 1 - t) then (1 : Int) else 0)]
  exact Finset.sum_range_reflect (fun t => if x.testBit t then (1 : Int) else 0) v

theorem check_sound {v k l u : Nat} {rows : List Nat} (h : check v k l u rows = true) :
    Spec.IsSRG v k l u (bitMat v rows) := by
  unfold check at h
  rw [Bool.and_eq_true] at h
  obtain ⟨h1, h2⟩ := h
  have hl : rows.length = v := by simpa using h1
  have hc := checkFrom_spec 0 rows h2
  simp only [Nat.zero_add, hl] at hc
  have hsym : ∀ i < v, ∀ j < v, (rows.getD i 0).testBit (v - 1 - j) =
      (rows.getD j 0).testBit (v - 1 - i) := by
    intro i hi j hj
    rcases Nat.lt_trichotomy i j with h | rfl | h
    · exact ((hc i hi).2.2 j h hj).1
    · rfl
    · exact ((hc j hj).2.2 i h hi).1.symm
  have hmeet : ∀ i < v, ∀ j < v, i ≠ j → pop v (rows.getD i 0 &&& rows.getD j 0) =
      if (rows.getD i 0).testBit (v - 1 - j) then l else u := by
    intro i hi j hj hne
    rcases Nat.lt_or_gt_of_ne hne with h | h
    · exact ((hc i hi).2.2 j h hj).2
    · rw [Nat.and_comm, hsym i hi j hj]
      exact ((hc j hj).2.2 i h hi).2
  rw [isSRG_iff]
  refine ⟨bitMat_square hl, ?_, ?_, ?_, ?_, ?_⟩
  · intro i j
    rw [bitMat_ent hl i.2 j.2]
    split <;> simp
  · intro i
    rw [bitMat_ent hl i.2 i.2, (hc i i.2).1]
    rfl
  · intro i j
    rw [bitMat_ent hl i.2 j.2, bitMat_ent hl j.2 i.2, hsym i i.2 j j.2]
  · intro i
    have : ∀ t : Fin v, Spec.ent (bitMat v rows) i t =
        if (rows.getD i 0).testBit (v - 1 - t) then 1 else 0 := fun t => bitMat_ent hl i.2 t.2
    simp only [this]
    rw [sum_bits, (hc i i.2).2.1]
  · intro i j hij
    have : ∀ t : Fin v, Spec.ent (bitMat v rows) i t * Spec.ent (bitMat v rows) j t =
        if (rows.getD i 0 &&& rows.getD j 0).testBit (v - 1 - t) then 1 else 0 := by
      intro t
      rw [bitMat_ent hl i.2 t.2, bitMat_ent hl j.2 t.2, Nat.testBit_and]
      cases (rows.getD i 0).testBit (v - 1 - t) <;> cases (rows.getD j 0).testBit (v - 1 - t) <;> rfl
    simp only [this]
    rw [sum_bits, hmeet i i.2 j j.2 (fun h => hij (Fin.ext h)), bitMat_ent hl i.2 j.2]
    by_cases hb : (rows.getD i 0).testBit (v - 1 - j) = true
    · simp [hb]
    · simp [hb]

end Database

end TDS
