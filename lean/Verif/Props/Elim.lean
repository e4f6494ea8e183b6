import Verif.Props.Rows

/-! C12–C14, C22, C23: elimination and the integer codes of rows and columns. -/

namespace TDS

open Gauss

theorem sys_of_system {C : Nat} {A : Mat} {b : Vec} (h : Spec.System C A b)
    (hb : ∀ x ∈ b, 0 ≤ x ∧ x ≤ 127) : Sys C A b := ⟨h.ne, h.len, h.rect, h.bin, hb⟩

/-- **C12.**  Elimination loses no solution. -/
theorem C12_elim_keeps {C : Nat} {A : Mat} {b : Vec} (h : Spec.System C A b) (hC : 0 < C)
    (hC63 : C ≤ 63) (hb : ∀ x ∈ b, 0 ≤ x ∧ x ≤ 127) (hcov : ∃ r ∈ A, r.getD 0 0 ≠ 0) :
    ∃ A' b', elim A b = .ok (A', b') ∧
      ∀ x : Vec, x.length = C → Spec.Solves A b x → Spec.Solves A' b' x := by
  obtain ⟨A', b', he, hs⟩ := elim_spec (sys_of_system h hb) hC hC63 hcov
  refine ⟨A', b', he, fun x hx hsol => ?_⟩
  rw [solves_iff (fun r hr => by rw [hs.sys.rect r hr, hx]) hs.sys.len.symm]
  rw [solves_iff (fun r hr => by rw [h.rect r hr, hx]) h.len.symm] at hsol
  exact hs.sat x hsol

example : elim [[1, 1, 1], [0, 1, 1]] [2, 1] = .ok ([[0, 1, 1], [1, 0, 0]], [1, 1]) ∧
    Spec.System 3 [[1, 1, 1], [0, 1, 1]] [2, 1] ∧
    Spec.Solves [[1, 1, 1], [0, 1, 1]] [2, 1] [1, 5, -4] := by
  refine ⟨by decide +kernel, ⟨by decide, by decide, by decide, by unfold Spec.Bin; decide⟩, ?_⟩
  unfold Spec.Solves Spec.meet
  decide

/-- **C13, refuted.**  Elimination can add solutions: two equal left-hand sides with different
right-hand sides are merged into a consistent system, because rows that become zero are dropped
together with their right-hand sides. -/
theorem C13_false : ∃ A b A' b' x, Spec.System 1 A b ∧ (∀ y ∈ b, 0 ≤ y ∧ y ≤ 127) ∧
    elim A b = .ok (A', b') ∧ x.length = 1 ∧ Spec.Solves A' b' x ∧ ¬ Spec.Solves A b x := by
  refine ⟨[[1], [1]], [0, 1], [[1]], [0], [0],
    ⟨by decide, by decide, by decide, by unfold Spec.Bin; decide⟩, by decide,
    by decide +kernel, rfl, ?_, ?_⟩ <;>
  · unfold Spec.Solves Spec.meet
    decide

/-- **C13, what is left.**  If the original system has any integer solution at all, elimination
adds none; and in every case the new system still bounds each original left-hand side by its
right-hand side.  Missing from the full statement: the consistency hypothesis in the first part,
which `C13_false` shows cannot be dropped. -/
theorem C13_elim_adds_nothing_partial {C : Nat} {A : Mat} {b : Vec} (h : Spec.System C A b)
    (hC : 0 < C) (hC63 : C ≤ 63) (hb : ∀ x ∈ b, 0 ≤ x ∧ x ≤ 127)
    (hcov : ∃ r ∈ A, r.getD 0 0 ≠ 0) :
    ∃ A' b', elim A b = .ok (A', b') ∧
      ((∃ x₀ : Vec, x₀.length = C ∧ Spec.Solves A b x₀) →
        ∀ x : Vec, x.length = C → Spec.Solves A' b' x → Spec.Solves A b x) ∧
      (∀ x : Vec, x.length = C → Spec.Solves A' b' x →
        ∀ i < A.length, Spec.meet (A.getD i []) x ≤ b.getD i 0) := by
  obtain ⟨A', b', he, hs⟩ := elim_spec (sys_of_system h hb) hC hC63 hcov
  refine ⟨A', b', he, ?_, ?_⟩
  · rintro ⟨x₀, hx₀, hsol₀⟩ x hx hsol
    rw [solves_iff (fun r hr => by rw [hs.sys.rect r hr, hx]) hs.sys.len.symm] at hsol
    rw [solves_iff (fun r hr => by rw [h.rect r hr, hx₀]) h.len.symm] at hsol₀
    rw [solves_iff (fun r hr => by rw [h.rect r hr, hx]) h.len.symm]
    exact hs.sat_back x₀ x hsol₀ hsol
  · intro x hx hsol i hi
    rw [solves_iff (fun r hr => by rw [hs.sys.rect r hr, hx]) hs.sys.len.symm] at hsol
    have hib : i < b.length := by rw [h.len]; exact hi
    have hm : (A[i], b[i]) ∈ A.zip b := by
      rw [List.mem_iff_getElem]
      exact ⟨i, by rw [List.length_zip]; omega, by simp⟩
    have := hs.sub x (fun p hp => (hsol p hp).le) _ hm
    rw [List.getD_eq_getElem _ _ hi, List.getD_eq_getElem _ _ hib,
      meet_eq_dot (by rw [h.rect _ (List.getElem_mem _), hx])]
    exact this

/-! ### C14 -/

theorem getD_revRow (n k i : Nat) :
    (revRow n k).getD i 0 = if i < n then ((k.testBit i).toNat : Int) else 0 := by
  induction n generalizing k i with
  | zero => simp [revRow]
  | succ n ih =>
    unfold revRow
    cases i with
    | zero =>
      rw [List.getD_cons_zero, if_pos (by omega), Nat.testBit_zero]
      rcases Nat.mod_two_eq_zero_or_one k with h | h <;> simp [h]
    | succ i =>
      rw [List.getD_cons_succ, ih, Nat.testBit_succ]
      simp

theorem covers_of_within {C a b : Nat} (ha : a < 2 ^ C)
    (h : Spec.Within (rowOf C a) (rowOf C b)) : a &&& b = a := by
  apply Nat.eq_of_testBit_eq
  intro i
  rw [Nat.testBit_and]
  by_cases hi : i < C
  · have h1 := h (C - 1 - i)
    unfold rowOf at h1
    rw [List.getD_reverse _ (by rw [revRow_length]; omega),
      List.getD_reverse _ (by rw [revRow_length]; omega), revRow_length, revRow_length,
      show C - 1 - (C - 1 - i) = i by omega, getD_revRow, getD_revRow, if_pos hi, if_pos hi] at h1
    revert h1
    cases a.testBit i <;> cases b.testBit i <;> simp
  · rw [Nat.testBit_lt_two_pow (lt_of_lt_of_le ha (Nat.pow_le_pow_right (by decide) (by omega)))]
    rfl

theorem binVal_eq_bval {r : Vec} (h : Bin r) : Spec.binVal r = bval r := by
  have : ∀ a : Int, r.foldl (fun a x => 2 * a + x) a = a * 2 ^ r.length + bval r := by
    induction r with
    | nil => intro a; simp [bval]
    | cons x t ih =>
      intro a
      rw [List.foldl_cons, ih h.tail]
      simp only [bval, List.length_cons]
      rcases h.head with rfl | rfl <;> push_cast <;> ring
  unfold Spec.binVal
  rw [this]; simp

/-- **C14.**  Elimination terminates without an exception.  Its rows are nonzero and sorted by
binary value, no row contains an earlier row whose right-hand side is not larger, right-hand sides
stay in range, the number of equations does not grow, and doing it again changes nothing. -/
theorem C14_elim_reduced {C : Nat} {A : Mat} {b : Vec} (h : Spec.System C A b) (hC : 0 < C)
    (hC63 : C ≤ 63) (hb : ∀ x ∈ b, 0 ≤ x ∧ x ≤ 127) (hcov : ∃ r ∈ A, r.getD 0 0 ≠ 0) :
    ∃ A' b', elim A b = .ok (A', b') ∧ Spec.System C A' b' ∧ (∀ x ∈ b', 0 ≤ x ∧ x ≤ 127) ∧
      (∀ r ∈ A', 0 < Spec.binVal r) ∧ A'.length ≤ A.length ∧
      (∀ i j, i < j → j < A'.length →
        Spec.binVal (A'.getD i []) ≤ Spec.binVal (A'.getD j []) ∧
        (Spec.Within (A'.getD i []) (A'.getD j []) → b'.getD j 0 < b'.getD i 0)) ∧
      elim A' b' = .ok (A', b') := by
  obtain ⟨A', b', he, hs⟩ := elim_spec (sys_of_system h hb) hC hC63 hcov
  obtain ⟨out, hA, hb', hfin, hr⟩ := hs.final
  have hval : ∀ e ∈ out, Spec.binVal (e.row C) = e.k := by
    intro e he
    rw [binVal_eq_bval (row_bin C e)]
    unfold Entry.row
    rw [bval_rowOf _ _ (hr e he).2.1]
    have := (hr e he).1
    omega
  refine ⟨A', b', he, ⟨hs.sys.ne, hs.sys.len, hs.sys.rect, hs.sys.bin⟩, hs.sys.range, ?_,
    hs.length_le, ?_, hs.idem⟩
  · intro r hr'
    rw [hA] at hr'
    obtain ⟨e, he, rfl⟩ := List.mem_map.1 hr'
    rw [hval e he]; exact (hr e he).1
  · intro i j hij hj
    have hj' : j < out.length := by rw [hA, List.length_map] at hj; exact hj
    have hp := List.pairwise_iff_getElem.1 hfin i j (by omega) hj' hij
    have hi1 := List.getElem_mem (l := out) (n := i) (by omega)
    have hj1 := List.getElem_mem (l := out) (n := j) hj'
    have e1 : ∀ n (hn : n < out.length), A'.getD n [] = out[n].row C := by
      intro n hn
      rw [hA, List.getD_eq_getElem _ _ (by rw [List.length_map]; exact hn), List.getElem_map]
    have e2 : ∀ n (hn : n < out.length), b'.getD n 0 = out[n].v := by
      intro n hn
      rw [hb', List.getD_eq_getElem _ _ (by rw [List.length_map]; exact hn), List.getElem_map]
    rw [e1 i (by omega), e1 j hj', e2 i (by omega), e2 j hj', hval _ hi1, hval _ hj1]
    have hle := hp.1
    rw [Entry.le_iff] at hle
    refine ⟨by omega, fun hw => ?_⟩
    have hc := covers_of_within (hr _ hi1).2.1 hw
    by_contra hcon
    have : isReducible out[i] out[j] = true := by
      rw [isReducible_iff]
      exact ⟨hc, by omega⟩
    rw [hp.2] at this
    simp at this

/-- The worked example at the end of /repo/srg/gauss_elim.py:148-165. -/
example : elim [[1, 1, 1, 1, 1], [1, 1, 0, 0, 0], [0, 0, 1, 1, 0], [1, 1, 1, 1, 0],
    [1, 0, 1, 0, 1]] [5, 2, 2, 4, 3] =
    .ok ([[0, 0, 0, 0, 1], [0, 0, 1, 1, 0], [1, 0, 1, 0, 0], [1, 1, 0, 0, 0]], [1, 2, 2, 2]) := by
  decide +kernel

/-! ### C22 -/

/-- **C22.**  Column codes identify columns, up to 64 rows. -/
theorem C22_codes {A : Mat} {C : Nat} (hne : A ≠ []) (hR : A.length ≤ 64)
    (hrect : ∀ r ∈ A, r.length = C) (hbin : ∀ r ∈ A, Spec.Bin r) :
    ∃ codes, Unique.encode A = .ok codes ∧ codes.length = C ∧
      ∀ i < C, ∀ j < C, (codes.getD i 0 = codes.getD j 0 ↔ Spec.ColEq A i j) := by
  have hC : ncols A = C := by
    obtain ⟨r, A', rfl⟩ := List.exists_cons_of_ne_nil hne
    exact hrect r (by simp)
  refine ⟨(List.range C).map (fun j => Unique.colKey (col A j)), ?_, by simp, ?_⟩
  · unfold Unique.encode
    rw [if_neg (by simpa using hne), hC]
  · intro i hi j hj
    have hg : ∀ n < C, ((List.range C).map (fun j => Unique.colKey (col A j))).getD n 0 =
        Unique.colKey (col A n) := by
      intro n hn
      rw [List.getD_eq_getElem _ _ (by simpa using hn)]
      simp
    have hb : ∀ n, Bin (col A n) := by
      intro n x hx
      obtain ⟨r, hr, rfl⟩ := List.mem_map.1 hx
      exact Bin.getD (hbin r hr) n
    rw [hg i hi, hg j hj, colKey_eq_rowKey, colKey_eq_rowKey]
    constructor
    · intro h
      have := rowKey_injective (hb i) (hb j) (by simp [col]) (by simpa [col] using hR) h
      intro r hr
      exact List.map_inj_left.1 this r hr
    · intro h
      have : col A i = col A j := List.map_congr_left h
      rw [this]

example : Unique.encode [[1, 0, 1], [0, 1, 0]] = .ok [2, 1, 2] := by decide +kernel

/-- With 65 rows the code overflows and different columns get equal codes. -/
theorem C22_false_at_65 : ∃ A : Mat, A.length = 65 ∧ (∀ r ∈ A, r.length = 2) ∧
    (∀ r ∈ A, Spec.Bin r) ∧ Unique.encode A = .ok [0, 0] ∧ ¬ Spec.ColEq A 0 1 := by
  refine ⟨[1, 0] :: List.replicate 64 [0, 0], rfl, by decide +kernel,
    by unfold Spec.Bin; decide +kernel, by decide +kernel, ?_⟩
  intro h
  exact absurd (h [1, 0] (by simp)) (by decide)

/-! ### C23 -/

/-- **C23.**  Decoding inverts encoding, up to 63 columns. -/
theorem C23_round_trip {C : Nat} {A : Mat} {b : Vec} (h : Spec.System C A b) (hC : 0 < C)
    (hC63 : C ≤ 63) (hb : ∀ x ∈ b, -128 ≤ x ∧ x ≤ 127) (hz : ∀ r ∈ A, ∃ j, r.getD j 0 ≠ 0)
    (hcov : ∃ r ∈ A, r.getD 0 0 ≠ 0) : (encode A b >>= decode) = .ok (A, b) := by
  have henc := encode_eqns (b := b) hC hC63 h.rect h.bin
  rw [encode_ok hC h.ne h.len h.rect, entryOf_zipIdx, ok_bind]
  set hd := (A.zip b).zipIdx.map entryOf with hhd
  have hA : hd.map (Entry.row C) = A := by
    have h1 := congrArg (List.map Prod.fst) henc
    rw [List.map_map, List.map_fst_zip (by rw [h.len])] at h1
    exact h1
  have hv : hd.map Entry.v = b := by
    have h1 := congrArg (List.map Prod.snd) henc
    rw [List.map_map, List.map_snd_zip (by rw [h.len])] at h1
    exact h1
  have hkey : ∀ e ∈ hd, 0 < e.k ∧ e.k.toNat < 2 ^ C := by
    intro e he
    obtain ⟨p, hp, rfl⟩ := List.mem_map.1 he
    have h1 := (List.of_mem_zip (mem_of_mem_zipIdx hp)).1
    have h3 := entryOf_row (p := p) hC hC63 (h.rect _ h1) (h.bin _ h1)
    refine ⟨?_, h3.2.1⟩
    rcases h3.2.2.lt_or_eq with h0 | h0
    · exact h0
    · exfalso
      obtain ⟨j, hj⟩ := hz _ h1
      apply hj
      rw [← h3.1]
      unfold Entry.row
      rw [← h0]
      exact rowOf_zero_getD C j
  rw [decode_keys hC hC63 hkey ?_, hA]
  · congr 2
    rw [← hv]
    apply List.map_congr_left
    intro e he
    have : e.v ∈ b := by rw [← hv]; exact List.mem_map_of_mem he
    exact i8_of_range (hb _ this).1 (hb _ this).2
  · obtain ⟨r, hr, hne⟩ := hcov
    rw [← hA] at hr
    obtain ⟨e, he, rfl⟩ := List.mem_map.1 hr
    exact ⟨e, he, hne⟩

example : (encode [[1, 0, 1], [0, 1, 0]] [-5, 127] >>= decode) =
    .ok ([[1, 0, 1], [0, 1, 0]], [-5, 127]) := by decide +kernel

/-- With 64 columns a code can be negative, and the loop of `_dec2bin` then never ends. -/
theorem C23_false_at_64 : ∃ A b e, Spec.System 64 A b ∧ (∀ x ∈ b, -128 ≤ x ∧ x ≤ 127) ∧
    (∀ r ∈ A, ∃ j, r.getD j 0 ≠ 0) ∧ (∃ r ∈ A, r.getD 0 0 ≠ 0) ∧
    encode A b = .ok [e] ∧ (∀ n, dec2binLoop n e.k = .error .fuel) := by
  refine ⟨[1 :: List.replicate 63 0], [0], ⟨-9223372036854775808, 0, 0⟩,
    ⟨by decide, by decide, by decide +kernel, by unfold Spec.Bin; decide +kernel⟩, by decide,
    ?_, ⟨_, List.mem_singleton.2 rfl, by decide⟩, by decide +kernel,
    fun n => dec2binLoop_neg n (by decide)⟩
  intro r hr
  rw [List.mem_singleton.1 hr]
  exact ⟨0, by decide⟩

/-- A row without ones is lost: it encodes to zero, which `_decode` cannot write back. -/
theorem C23_zero_row_needed :
    (encode [[1, 0], [0, 0]] [1, 0] >>= decode) = .error .valueErr := by decide +kernel

/-- A leading zero column is lost. -/
theorem C23_first_column_needed :
    (encode [[0, 1], [0, 1]] [1, 0] >>= decode) = .ok ([[1], [1]], [1, 0]) := by decide +kernel

end TDS
