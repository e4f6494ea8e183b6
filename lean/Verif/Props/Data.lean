import Verif.Proof.Bits28
import Verif.Props.Database

/-! C41, C42: the stored solutions. -/

namespace TDS

namespace Database

theorem check28 : p_28_12_6_4.all (check 28 12 6 4) = true := by
  unfold p_28_12_6_4
  rw [List.all_append, List.all_append, List.all_append, List.all_append, List.all_append,
    List.all_append, check28_0, check28_1, check28_2, check28_3, check28_4, check28_5, check28_6]
  rfl

theorem check_rest : ∀ e ∈ entries, e.name ≠ "problem_28_12_6_4" →
    e.rows.all (check e.v e.k e.l e.u) = true := by
  decide +kernel

theorem names_ok : ∀ e ∈ entries, e.name.toList = moduleName e.v e.k e.l e.u := by
  decide +kernel

theorem check_entry {e : Entry} (he : e ∈ entries) : e.rows.all (check e.v e.k e.l e.u) = true := by
  by_cases hn : e.name = "problem_28_12_6_4"
  · have h28 : ∀ e ∈ entries, e.name = "problem_28_12_6_4" →
        e = ⟨"problem_28_12_6_4", 28, 12, 6, 4, p_28_12_6_4⟩ := by
      unfold entries
      simp
    rw [h28 e he hn]
    exact check28
  · exact check_rest e he hn

theorem names_nodup : (modules.map Prod.fst).Nodup := by
  unfold modules
  rw [List.map_map]
  show (entries.map (fun e => e.name.toList)).Nodup
  decide +kernel

end Database

open Database

/-- C41: whatever `get_solutions` returns consists of strongly regular graphs with the requested
parameters. -/
theorem C41_stored_srg {v k l u : Int} {sols : List Mat}
    (h : getSolutions modules v k l u = .ok sols) :
    0 ≤ v ∧ ∀ m ∈ sols, Spec.IsSRG v.toNat k l u m := by
  rw [C33_get_solutions names_nodup] at h
  unfold modules at h
  obtain ⟨e, he, hm⟩ := List.mem_map.1 h
  simp only [Prod.mk.injEq] at hm
  obtain ⟨h1, h2⟩ := hm
  rw [names_ok e he] at h1
  have h3 := C33_injective h1
  simp only [Prod.mk.injEq] at h3
  obtain ⟨rfl, rfl, rfl, rfl⟩ := h3
  refine ⟨by omega, ?_⟩
  intro m hm
  rw [← h2] at hm
  obtain ⟨rows, hr, rfl⟩ := List.mem_map.1 hm
  exact check_sound (List.all_eq_true.1 (check_entry he) rows hr)

/-- C41: the modules found, and nothing else, can be loaded. -/
theorem C41_loadable (v k l u : Int) : (∃ sols, getSolutions modules v k l u = .ok sols) ↔
    moduleName v k l u ∈ listProblems modules := by
  constructor
  · rintro ⟨sols, h⟩
    rw [C33_get_solutions names_nodup] at h
    unfold listProblems
    rw [List.mem_filter]
    refine ⟨List.mem_map.2 ⟨_, h, rfl⟩, ?_⟩
    unfold moduleName
    rw [List.append_assoc, List.append_assoc, List.append_assoc]
    rw [List.isPrefixOf_iff_prefix]
    exact ⟨'_' :: (intStr v ++ '_' :: (intStr k ++ '_' :: (intStr l ++ '_' :: intStr u))), by
      rw [show "problem_".toList = "problem".toList ++ ['_'] by decide]; simp⟩
  · intro h
    unfold listProblems at h
    have := (List.mem_filter.1 h).1
    obtain ⟨p, hp, he⟩ := List.mem_map.1 this
    exact ⟨p.2, (C33_get_solutions names_nodup).2 (by rw [← he]; exact hp)⟩

example : (getSolutions modules 10 6 3 4).map List.length = .ok 2 ∧
    (getSolutions modules 28 12 6 4).map List.length = .ok 161 ∧
    getSolutions modules 9 4 1 2 = .error .importErr ∧ (listProblems modules).length = 21 := by
  decide +kernel

/-! ### C42 -/

/-- Strictly increasing neighbours. -/
def chain : List Mat → Bool
  | a :: b :: t => decide (Sorter.cmpMat a b < 0) && chain (b :: t)
  | _ => true

theorem chain_spec {v : Nat} : ∀ (l : List Mat), (∀ m ∈ l, Spec.Square v m) → chain l = true →
    l.Pairwise (Spec.UpperLT v)
  | [], _, _ => List.Pairwise.nil
  | [_], _, _ => by simp
  | a :: b :: t, hs, h => by
    unfold chain at h
    rw [Bool.and_eq_true] at h
    have ih := chain_spec (b :: t) (fun m hm => hs m (List.mem_cons_of_mem _ hm)) h.2
    have hab : Spec.UpperLT v a b :=
      (Sorter.cmpMat_neg (hs a (by simp)) (hs b (by simp))).1 (by simpa using h.1)
    refine List.pairwise_cons.2 ⟨?_, ih⟩
    intro m hm
    rcases List.mem_cons.1 hm with rfl | hm
    · exact hab
    · exact Sorter.upperLT_trans hab ((List.pairwise_cons.1 ih).1 m hm)

theorem chain_rest : ∀ e ∈ entries, e.name ≠ "problem_28_12_6_4" →
    chain e.solutions = true := by
  decide +kernel

/-- C42: every stored list except that of (28,12,6,4) is strictly increasing in the order used by
`sort`; so it has no repetitions and sorting it changes nothing. -/
theorem C42_increasing {v k l u : Int} {sols : List Mat} (hne : (v, k, l, u) ≠ (28, 12, 6, 4))
    (h : getSolutions modules v k l u = .ok sols) : sols.Pairwise (Spec.UpperLT v.toNat) := by
  have hsrg := C41_stored_srg h
  rw [C33_get_solutions names_nodup] at h
  unfold modules at h
  obtain ⟨e, he, hm⟩ := List.mem_map.1 h
  simp only [Prod.mk.injEq] at hm
  obtain ⟨h1, h2⟩ := hm
  have hn := h1
  rw [names_ok e he] at h1
  have h3 := C33_injective h1
  simp only [Prod.mk.injEq] at h3
  obtain ⟨rfl, rfl, rfl, rfl⟩ := h3
  refine chain_spec sols (fun m hm => (isSRG_iff.1 (hsrg.2 m hm)).1) ?_
  rw [← h2]
  refine chain_rest e he ?_
  intro hc
  apply hne
  have h4 : moduleName e.v e.k e.l e.u = moduleName 28 12 6 4 := by
    rw [← hn, hc]; decide +kernel
  exact C33_injective h4

theorem get28 : getSolutions modules 28 12 6 4 = .ok (p_28_12_6_4.map (bitMat 28)) := by
  rw [C33_get_solutions names_nodup]
  refine List.mem_map.2 ⟨⟨"problem_28_12_6_4", 28, 12, 6, 4, p_28_12_6_4⟩, ?_, ?_⟩
  · unfold entries; simp
  · simp only [Prod.mk.injEq]
    exact ⟨by decide +kernel, rfl⟩

/-- C42: the list stored for (28,12,6,4) is not sorted. -/
theorem C42_unsorted : ∃ sols, getSolutions modules 28 12 6 4 = .ok sols ∧
    ¬ sols.Pairwise (fun a b => ¬ Spec.UpperLT 28 b a) := by
  refine ⟨_, get28, ?_⟩
  intro h
  have h2 : ((p_28_12_6_4.map (bitMat 28)).drop 11).Pairwise (fun a b => ¬ Spec.UpperLT 28 b a) :=
    h.sublist (List.drop_sublist _ _)
  have h3 : ((p_28_12_6_4.map (bitMat 28)).drop 11).take 2 =
      [bitMat 28 (p_28_12_6_4.getD 11 []), bitMat 28 (p_28_12_6_4.getD 12 [])] := by
    decide +kernel
  have h4 := h2.sublist (List.take_sublist 2 _)
  rw [h3] at h4
  simp only [List.pairwise_cons, List.mem_singleton, forall_eq] at h4
  apply h4.1
  rw [← Sorter.cmpMat_neg (bitMat_square (by decide +kernel)) (bitMat_square (by decide +kernel))]
  decide +kernel

theorem bitRow_injective {v x y : Nat} (hx : x < 2 ^ v) (hy : y < 2 ^ v)
    (h : bitRow v x = bitRow v y) : x = y := by
  refine Nat.eq_of_testBit_eq ?_
  intro i
  by_cases hi : i < v
  · have h1 : (bitRow v x).getD (v - 1 - i) 0 = (bitRow v y).getD (v - 1 - i) 0 := by rw [h]
    unfold bitRow at h1
    rw [getD_map_range (by omega), getD_map_range (by omega),
      show v - 1 - (v - 1 - i) = i by omega] at h1
    cases hbx : x.testBit i <;> cases hby : y.testBit i <;> simp [hbx, hby] at h1 <;> rfl
  · have hle : 2 ^ v ≤ 2 ^ i := Nat.pow_le_pow_right (by decide) (by omega)
    rw [Nat.testBit_lt_two_pow (by omega), Nat.testBit_lt_two_pow (by omega)]

theorem bitMat_injective {v : Nat} : ∀ {r s : List Nat}, (∀ x ∈ r, x < 2 ^ v) →
    (∀ x ∈ s, x < 2 ^ v) → bitMat v r = bitMat v s → r = s
  | [], [], _, _, _ => rfl
  | [], _ :: _, _, _, h => by simp [bitMat] at h
  | _ :: _, [], _, _, h => by simp [bitMat] at h
  | a :: r, b :: s, hr, hs, h => by
    simp only [bitMat, List.map_cons, List.cons.injEq] at h
    rw [bitRow_injective (hr a (by simp)) (hs b (by simp)) h.1,
      bitMat_injective (fun x hx => hr x (List.mem_cons_of_mem _ hx))
        (fun x hx => hs x (List.mem_cons_of_mem _ hx)) h.2]

theorem nodup28 : p_28_12_6_4.Nodup ∧ ∀ r ∈ p_28_12_6_4, ∀ x ∈ r, x < 2 ^ 28 := by
  decide +kernel

/-- C42: no stored list has repetitions. -/
theorem C42_distinct {v k l u : Int} {sols : List Mat}
    (h : getSolutions modules v k l u = .ok sols) : sols.Nodup := by
  by_cases hne : (v, k, l, u) = (28, 12, 6, 4)
  · simp only [Prod.mk.injEq] at hne
    obtain ⟨rfl, rfl, rfl, rfl⟩ := hne
    rw [get28] at h
    simp only [Except.ok.injEq] at h
    subst h
    refine List.Nodup.map_on ?_ nodup28.1
    intro r hr s hs he
    exact bitMat_injective (nodup28.2 r hr) (nodup28.2 s hs) he
  · refine (C42_increasing hne h).imp ?_
    rintro a b ⟨i, j, -, -, hlt, -⟩ rfl
    omega

end TDS
