import Verif.Find.Small
import Verif.Find.P21
import Verif.Find.P27
import Verif.Find.P28
import Verif.Find.Iso
import Verif.Find.Iso28
import Verif.Proof.Canon
import Verif.Proof.Graph
import Verif.Props.Data
import Verif.Props.Exact
import Verif.Run.Small
import Verif.Run.R13
import Verif.Run.R15
import Verif.Run.R16a
import Verif.Run.R16b

/-! C45, C46, C47: what the stored lists contain and what they leave out. -/

set_option Elab.async false

namespace TDS

open Database

/-! ### C45 -/

/-- The list was compared with an exhaustive search. -/
def Searched (v k l u : Nat) (L : List (List Nat)) : Prop :=
  ∃ d n, d ≤ v ∧ 0 < n ∧ ∀ i < n, Fast.part v k l u d n i L = true

/-- Stored parameters whose lists are not complete. -/
def gaps : List (Nat × Nat × Nat × Nat) := [(25, 12, 5, 6), (26, 10, 3, 4), (29, 14, 6, 7)]

theorem searched_entry : ∀ e ∈ entries, (e.v, e.k, e.l, e.u) ∉ gaps →
    Searched e.v e.k e.l e.u e.rows := by
  unfold entries
  simp only [List.forall_mem_cons]
  refine ⟨?_, ?_, ?_, ?_, ?_, ?_, ?_, ?_, ?_, ?_, ?_, ?_, ?_, ?_, ?_, ?_, ?_, ?_, ?_, ?_, ?_, ?_⟩
  · exact fun _ => ⟨0, 1, by decide, by decide, Fast.part_10_3_0_1⟩
  · exact fun _ => ⟨0, 1, by decide, by decide, Fast.part_10_6_3_4⟩
  · exact fun _ => ⟨0, 1, by decide, by decide, Fast.part_12_6_0_6⟩
  · exact fun _ => ⟨0, 1, by decide, by decide, Fast.part_13_6_2_3⟩
  · exact fun _ => ⟨0, 1, by decide, by decide, Fast.part_15_6_1_3⟩
  · exact fun _ => ⟨0, 1, by decide, by decide, Fast.part_15_8_4_4⟩
  · exact fun _ => ⟨0, 1, by decide, by decide, Fast.part_16_10_6_6⟩
  · exact fun _ => ⟨0, 1, by decide, by decide, Fast.part_16_5_0_2⟩
  · exact fun _ => ⟨0, 1, by decide, by decide, Fast.part_16_6_2_2⟩
  · exact fun _ => ⟨0, 1, by decide, by decide, Fast.part_16_9_4_6⟩
  · exact fun _ => ⟨0, 1, by decide, by decide, Fast.part_17_8_3_4⟩
  · exact fun _ => ⟨5, 23, by decide, by decide, Fast.part_21_10_4_5⟩
  · exact fun _ => ⟨0, 1, by decide, by decide, Fast.part_21_10_5_4⟩
  · exact fun h => absurd (by decide) h
  · exact fun _ => ⟨0, 1, by decide, by decide, Fast.part_25_8_3_2⟩
  · exact fun h => absurd (by decide) h
  · exact fun _ => ⟨8, 11, by decide, by decide, Fast.part_27_10_1_5⟩
  · exact fun _ => ⟨4, 53, by decide, by decide, Fast.part_28_12_6_4⟩
  · exact fun h => absurd (by decide) h
  · exact fun _ => ⟨0, 1, by decide, by decide, Fast.part_4_2_0_2⟩
  · exact fun _ => ⟨0, 1, by decide, by decide, Fast.part_5_2_0_1⟩
  · simp

/-- What `get_solutions` returns is the list of an entry. -/
theorem get_entry {v k l u : Nat} {sols : List Mat}
    (h : getSolutions modules v k l u = .ok sols) :
    ∃ name rows, (⟨name, v, k, l, u, rows⟩ : Entry) ∈ entries ∧ sols = rows.map (bitMat v) := by
  rw [C33_get_solutions names_nodup] at h
  unfold modules at h
  obtain ⟨e, he, hm⟩ := List.mem_map.1 h
  simp only [Prod.mk.injEq] at hm
  obtain ⟨h1, h2⟩ := hm
  rw [names_ok e he] at h1
  have h3 := C33_injective h1
  simp only [Prod.mk.injEq, Nat.cast_inj] at h3
  obtain ⟨rfl, rfl, rfl, rfl⟩ := h3
  exact ⟨e.name, e.rows, he, h2.symm⟩

theorem get_of_entry {v k l u : Nat} {name : String} {rows : List (List Nat)}
    (h : (⟨name, v, k, l, u, rows⟩ : Entry) ∈ entries) :
    getSolutions modules v k l u = .ok (rows.map (bitMat v)) := by
  rw [C33_get_solutions names_nodup]
  refine List.mem_map.2 ⟨_, h, ?_⟩
  simp only [Prod.mk.injEq]
  exact ⟨names_ok _ h, rfl⟩

theorem just_entry : ∀ e ∈ entries, ∀ r ∈ e.rows,
    (∀ x ∈ r, x < 2 ^ e.v) ∧ Fast.justBits e.v r = true := by
  decide +kernel

theorem good_entry : ∀ e ∈ entries, 3 ≤ e.v ∧ e.v ≤ 66 ∧ e.l < e.k ∧ e.k < e.v ∧
    2 * e.k ≤ e.v + e.l ∧ e.v ≠ e.k + 1 ∧
    ((e.v : Int) - e.k - 1) * e.u = e.k * ((e.k : Int) - e.l - 1) := by
  decide +kernel

theorem entry_good {e : Entry} (he : e ∈ entries) : Good e.v e.k e.l e.u := by
  obtain ⟨h1, h2, h3, h4, h5, h6, h7⟩ := good_entry e he
  exact ⟨h1, h2, by omega, by omega, by omega, by omega, h7, by omega⟩

theorem stored_justified {v k l u : Nat} {sols : List Mat}
    (h : getSolutions modules v k l u = .ok sols) : ∀ m ∈ sols, Spec.Justified v m := by
  intro m hm
  have hs := (C41_stored_srg h).2 m hm
  obtain ⟨name, rows, he, rfl⟩ := get_entry h
  obtain ⟨r, hr, rfl⟩ := List.mem_map.1 hm
  obtain ⟨h1, h2⟩ := just_entry _ he r hr
  have hl : r.length = v := by simpa [bitMat] using hs.adj.square
  exact Fast.justified_of_bits hl h1
    (fun i hi j hj => (isSRG_iff.1 hs).2.2.2.1 ⟨i, hi⟩ ⟨j, hj⟩) h2

/-- **C45.**  Every stored list, except those for (25,12,5,6), (26,10,3,4) and (29,14,6,7), contains
every strongly regular graph with its parameters, up to isomorphism. -/
theorem C45_complete.{w} {v k l u : Nat} {sols : List Mat} (hne : (v, k, l, u) ∉ gaps)
    (h : getSolutions modules v k l u = .ok sols) : Spec.Complete.{w} v k l u sols := by
  obtain ⟨name, rows, he, rfl⟩ := get_entry h
  obtain ⟨d, n, hd, hn, hp⟩ := searched_entry _ he hne
  exact Fast.complete_of_part d n (good_entry _ he).2.1 hd hn hp

/-- **C45.**  The stored matrices are exactly the results of the search all of whose rows have `k`
ones. -/
theorem C45_found {v k l u : Nat} {sols : List Mat} (hne : (v, k, l, u) ∉ gaps)
    (h : getSolutions modules v k l u = .ok sols) {out : List Mat} (ho : IsOutput v k l u out)
    (m : Mat) : m ∈ sols ↔ (m ∈ out ∧ ∀ r ∈ m, r.sum = k) := by
  have hj := stored_justified h
  have hs := (C41_stored_srg h).2
  obtain ⟨name, rows, he, rfl⟩ := get_entry h
  obtain ⟨d, n, hd, hn, hp⟩ := searched_entry _ he hne
  rw [C44_regular (entry_good he) ho]
  constructor
  · exact fun hm => ⟨hs m hm, hj m hm⟩
  · exact fun hm => Fast.mem_of_part d n (good_entry _ he).2.1 hd hn hp hm.1 hm.2

/-- **C45**, for the three incomplete lists: what is stored would be found again. -/
theorem C45_found_again {v k l u : Nat} {sols : List Mat}
    (h : getSolutions modules v k l u = .ok sols) {out : List Mat} (ho : IsOutput v k l u out) :
    ∀ m ∈ sols, m ∈ out := by
  intro m hm
  have hj := stored_justified h m hm
  have hs := (C41_stored_srg h).2 m hm
  obtain ⟨name, rows, he, rfl⟩ := get_entry h
  exact ((C44_regular (entry_good he) ho m).2 ⟨hs, hj⟩).1

/-- The parameters for which the whole program was evaluated, as typed. -/
def printed : List (Nat × Nat × Nat × Nat) :=
  [(4, 2, 0, 2), (5, 2, 0, 1), (10, 3, 0, 1), (10, 6, 3, 4), (12, 6, 0, 6), (13, 6, 2, 3),
   (15, 6, 1, 3), (16, 5, 0, 2), (16, 6, 2, 2)]

/-- **C45.**  For these parameters the command line program prints exactly the stored list, in the
stored order. -/
theorem C45_printed : ∀ p ∈ printed,
    main [natStr p.1, natStr p.2.1, natStr p.2.2.1, natStr p.2.2.2] =
      getSolutions modules p.1 p.2.1 p.2.2.1 p.2.2.2 := by
  unfold printed
  simp only [List.forall_mem_cons]
  refine ⟨?_, ?_, ?_, ?_, ?_, ?_, ?_, ?_, ?_, ?_⟩
  · exact Eq.trans run_4_2_0_2 (get_of_entry (name := "problem_4_2_0_2") (by unfold entries; simp)).symm
  · exact Eq.trans run_5_2_0_1 (get_of_entry (name := "problem_5_2_0_1") (by unfold entries; simp)).symm
  · exact Eq.trans run_10_3_0_1 (get_of_entry (name := "problem_10_3_0_1") (by unfold entries; simp)).symm
  · exact Eq.trans run_10_6_3_4 (get_of_entry (name := "problem_10_6_3_4") (by unfold entries; simp)).symm
  · exact Eq.trans run_12_6_0_6 (get_of_entry (name := "problem_12_6_0_6") (by unfold entries; simp)).symm
  · exact Eq.trans run_13_6_2_3 (get_of_entry (name := "problem_13_6_2_3") (by unfold entries; simp)).symm
  · exact Eq.trans run_15_6_1_3 (get_of_entry (name := "problem_15_6_1_3") (by unfold entries; simp)).symm
  · exact Eq.trans run_16_5_0_2 (get_of_entry (name := "problem_16_5_0_2") (by unfold entries; simp)).symm
  · exact Eq.trans run_16_6_2_2 (get_of_entry (name := "problem_16_6_2_2") (by unfold entries; simp)).symm
  · simp

/-- Non-vacuity: the list stored for (10,6,3,4) has two matrices and is covered. -/
example : (10, 6, 3, 4) ∉ gaps ∧ (getSolutions modules 10 6 3 4).map List.length = .ok 2 := by
  decide +kernel

/-! ### C46 -/

theorem classified_entry.{w} {v k l u : Nat} {name : String} {L R : List (List Nat)}
    {c : List (Nat × List Nat)} (he : (⟨name, v, k, l, u, L⟩ : Entry) ∈ entries)
    (hne : (v, k, l, u) ∉ gaps) (hR : ∀ r ∈ R, r ∈ L) (hp : relabelled v R L c = true)
    (hn : R.Pairwise (fun a b => ∃ r, bitCliques v a r ≠ bitCliques v b r)) :
    Spec.Classified.{w} v k l u R.length :=
  Classified.of (C45_complete hne (get_of_entry he)) (C41_stored_srg (get_of_entry he)).2 hR hp hn

theorem classified_one.{w} {v k l u : Nat} {name : String} {L : List (List Nat)}
    {c : List (Nat × List Nat)} (he : (⟨name, v, k, l, u, L⟩ : Entry) ∈ entries)
    (hne : (v, k, l, u) ∉ gaps) (hL : L.getD 0 [] ∈ L)
    (hp : relabelled v ([0].map (L.getD · [])) L c = true) :
    Spec.Classified.{w} v k l u 1 :=
  classified_entry he hne (by simpa using hL) hp (by simp)

theorem relabelled28 : relabelled 28 r_28_12_6_4 p_28_12_6_4
    (c_28_12_6_4_0 ++ (c_28_12_6_4_1 ++ (c_28_12_6_4_2 ++ (c_28_12_6_4_3 ++ (c_28_12_6_4_4 ++
      (c_28_12_6_4_5 ++ c_28_12_6_4_6)))))) = true := by
  unfold p_28_12_6_4
  simp only [List.append_assoc]
  refine relabelled_append ?_ (by decide +kernel) classes_28_12_6_4_0
  refine relabelled_append ?_ (by decide +kernel) classes_28_12_6_4_1
  refine relabelled_append ?_ (by decide +kernel) classes_28_12_6_4_2
  refine relabelled_append ?_ (by decide +kernel) classes_28_12_6_4_3
  refine relabelled_append ?_ (by decide +kernel) classes_28_12_6_4_4
  exact relabelled_append classes_28_12_6_4_6 (by decide +kernel) classes_28_12_6_4_5

theorem pairwise28 : r_28_12_6_4.Pairwise
    (fun a b => ∃ r, bitCliques 28 a r ≠ bitCliques 28 b r) := by
  have h4 := cliques_28_12_6_4
  have h6 := cliques6_28_12_6_4
  unfold r_28_12_6_4 at *
  simp only [List.map_cons, List.map_nil, List.drop_succ_cons, List.drop_zero, List.cons.injEq,
    and_true] at h4 h6
  obtain ⟨a, b, c, d⟩ := h4
  obtain ⟨e, f⟩ := h6
  simp only [List.map_cons, List.map_nil, List.pairwise_cons, List.mem_cons, List.not_mem_nil,
    or_false, forall_eq_or_imp, forall_eq, List.Pairwise.nil, and_true, IsEmpty.forall_iff,
    implies_true]
  exact ⟨⟨⟨4, by rw [a, b]; decide⟩, ⟨4, by rw [a, c]; decide⟩, ⟨4, by rw [a, d]; decide⟩⟩,
    ⟨⟨4, by rw [b, c]; decide⟩, ⟨4, by rw [b, d]; decide⟩⟩, ⟨6, by rw [e, f]; decide⟩⟩

/-- Stored parameters, with the number of graphs. -/
def numbers : List (Nat × Nat × Nat × Nat × Nat) :=
  [(4, 2, 0, 2, 1), (5, 2, 0, 1, 1), (10, 3, 0, 1, 1), (10, 6, 3, 4, 1), (12, 6, 0, 6, 1),
   (13, 6, 2, 3, 1), (15, 6, 1, 3, 1), (15, 8, 4, 4, 1), (16, 5, 0, 2, 1), (16, 10, 6, 6, 1),
   (17, 8, 3, 4, 1), (21, 10, 5, 4, 1), (25, 8, 3, 2, 1), (27, 10, 1, 5, 1), (16, 6, 2, 2, 2),
   (16, 9, 4, 6, 2), (28, 12, 6, 4, 4), (21, 10, 4, 5, 0)]

/-- **C46.**  The number of strongly regular graphs, up to isomorphism, for all stored parameters
outside `gaps`. -/
theorem C46_classified.{w} : ∀ p ∈ numbers,
    Spec.Classified.{w} p.1 p.2.1 p.2.2.1 p.2.2.2.1 p.2.2.2.2 := by
  unfold numbers
  simp only [List.forall_mem_cons]
  refine ⟨?_, ?_, ?_, ?_, ?_, ?_, ?_, ?_, ?_, ?_, ?_, ?_, ?_, ?_,
    ?_, ?_, ?_, ?_, ?_⟩
  · exact classified_one (name := "problem_4_2_0_2") (by unfold entries; simp) (by decide)
      (by decide +kernel) classes_4_2_0_2
  · exact classified_one (name := "problem_5_2_0_1") (by unfold entries; simp) (by decide)
      (by decide +kernel) classes_5_2_0_1
  · exact classified_one (name := "problem_10_3_0_1") (by unfold entries; simp) (by decide)
      (by decide +kernel) classes_10_3_0_1
  · exact classified_one (name := "problem_10_6_3_4") (by unfold entries; simp) (by decide)
      (by decide +kernel) classes_10_6_3_4
  · exact classified_one (name := "problem_12_6_0_6") (by unfold entries; simp) (by decide)
      (by decide +kernel) classes_12_6_0_6
  · exact classified_one (name := "problem_13_6_2_3") (by unfold entries; simp) (by decide)
      (by decide +kernel) classes_13_6_2_3
  · exact classified_one (name := "problem_15_6_1_3") (by unfold entries; simp) (by decide)
      (by decide +kernel) classes_15_6_1_3
  · exact classified_one (name := "problem_15_8_4_4") (by unfold entries; simp) (by decide)
      (by decide +kernel) classes_15_8_4_4
  · exact classified_one (name := "problem_16_5_0_2") (by unfold entries; simp) (by decide)
      (by decide +kernel) classes_16_5_0_2
  · exact classified_one (name := "problem_16_10_6_6") (by unfold entries; simp) (by decide)
      (by decide +kernel) classes_16_10_6_6
  · exact classified_one (name := "problem_17_8_3_4") (by unfold entries; simp) (by decide)
      (by decide +kernel) classes_17_8_3_4
  · exact classified_one (name := "problem_21_10_5_4") (by unfold entries; simp) (by decide)
      (by decide +kernel) classes_21_10_5_4
  · exact classified_one (name := "problem_25_8_3_2") (by unfold entries; simp) (by decide)
      (by decide +kernel) classes_25_8_3_2
  · exact classified_one (name := "problem_27_10_1_5") (by unfold entries; simp) (by decide)
      (by decide +kernel) classes_27_10_1_5
  · exact classified_entry (name := "problem_16_6_2_2") (by unfold entries; simp) (by decide)
      (by decide +kernel) classes_16_6_2_2 (pairwise_cliques cliques_16_6_2_2)
  · exact classified_entry (name := "problem_16_9_4_6") (by unfold entries; simp) (by decide)
      (by decide +kernel) classes_16_9_4_6 (pairwise_cliques cliques_16_9_4_6)
  · exact classified_entry (name := "problem_28_12_6_4") (by unfold entries; simp) (by decide)
      (by decide +kernel) relabelled28 pairwise28
  · exact classified_entry (name := "problem_21_10_4_5") (L := p_21_10_4_5) (R := []) (c := [])
      (by unfold entries; simp) (by decide) (by simp) (by decide +kernel) List.Pairwise.nil
  · simp

/-- The table has all stored parameters outside `gaps`. -/
theorem C46_all {v k l u : Nat} {sols : List Mat} (hne : (v, k, l, u) ∉ gaps)
    (h : getSolutions modules v k l u = .ok sols) : ∃ n, (v, k, l, u, n) ∈ numbers := by
  have key : ∀ e ∈ entries, (e.v, e.k, e.l, e.u) ∉ gaps →
      (numbers.map (fun p => (p.1, p.2.1, p.2.2.1, p.2.2.2.1))).contains (e.v, e.k, e.l, e.u) := by
    decide +kernel
  obtain ⟨name, rows, he, -⟩ := get_entry h
  have := List.contains_iff_mem.1 (key _ he hne)
  obtain ⟨⟨v', k', l', u', n⟩, hp, hq⟩ := List.mem_map.1 this
  simp only [Prod.mk.injEq] at hq
  obtain ⟨rfl, rfl, rfl, rfl⟩ := hq
  exact ⟨n, hp⟩

/-- **C46.**  One class means that any two graphs with the parameters are isomorphic. -/
theorem C46_alone.{w} {v k l u : Nat} (h : (v, k, l, u, 1) ∈ numbers) :
    Spec.Alone.{w, w} v k l u := by
  obtain ⟨reps, h1, -, -, h4⟩ := C46_classified _ h
  obtain ⟨m, rfl⟩ := List.length_eq_one_iff.1 h1
  exact Alone.of_complete h4 h4

/-- **C46.**  There is no strongly regular graph with parameters (21,10,4,5), the parameters whose
stored list is empty. -/
theorem C46_none {V : Type*} [Fintype V] [DecidableEq V] (G : SimpleGraph V)
    [DecidableRel G.Adj] : ¬ G.IsSRGWith 21 10 4 5 := by
  intro hG
  obtain ⟨reps, h1, -, -, h4⟩ := C46_classified (21, 10, 4, 5, 0) (by decide)
  obtain ⟨m, hm, -⟩ := h4 V G hG
  rw [List.length_eq_zero_iff.1 h1] at hm
  simp at hm

/-- **C46.**  The stored lists are not reduced up to isomorphism: the two matrices stored for
(10,6,3,4) are relabellings of each other. -/
theorem C46_duplicates : ∃ m m', getSolutions modules 10 6 3 4 = .ok [m, m'] ∧ m ≠ m' ∧
    Spec.Relabels 10 m m' := by
  have h := get_of_entry (name := "problem_10_6_3_4") (v := 10) (k := 6) (l := 3) (u := 4)
    (rows := p_10_6_3_4) (by unfold entries; simp)
  have h2 : p_10_6_3_4 = [p_10_6_3_4.getD 0 [], p_10_6_3_4.getD 1 []] := by decide +kernel
  have hc : Spec.Complete.{0} 10 6 3 4 _ := C45_complete (by decide) h
  refine ⟨bitMat 10 (p_10_6_3_4.getD 0 []), bitMat 10 (p_10_6_3_4.getD 1 []), ?_, ?_, ?_⟩
  · rw [h2] at h
    exact h
  · decide +kernel
  · obtain ⟨r', hr', p, hp⟩ := relabelled_spec classes_10_6_3_4 (p_10_6_3_4.getD 1 [])
      (by decide +kernel)
    have e : r' = p_10_6_3_4.getD 0 [] := by simpa using hr'
    rw [e] at hp
    exact relabels_of_sameBits (by decide +kernel) (by decide +kernel) hp

/-! ### C47 -/

/-- The complement of the matrix stored for (25,12,5,6). -/
def w_25_12_5_6 : List Nat :=
  [4095, 258111, 3944655, 6079283, 6540483, 6387540, 6470568, 9747793, 9993890, 11945580,
   12159388, 13568358, 13567641, 18310021, 18584394, 19766309, 19819546, 22370424, 22717620,
   27632338, 27939297, 29676934, 29944393, 32580905, 32643606]

/-- A strongly regular graph with parameters (26,10,3,4) that is not stored. -/
def w_26_10_3_4 : List Nat :=
  [2174584, 12615298, 20472162, 19274010, 48179200, 10590660, 10830871, 6948772, 6611145,
   37229195, 1190071, 25823821, 60986401, 22095117, 57721364, 51130580, 50678177, 13898353,
   18318914, 43140504, 42246926, 38309187, 37965926, 1891368, 29982904, 783120]

/-- The Paley graph with 29 vertices. -/
def w_29_14_6_7 : List Nat :=
  [166236537, 351553724, 175776862, 87888431, 312379671, 424625291, 480748101, 508809506,
   254404753, 395637832, 197818916, 98909458, 49454729, 293162820, 146581410, 73290705, 305080808,
   152540404, 76270202, 38135101, 287503006, 143751503, 340311207, 438591059, 487730985,
   512300948, 256150474, 128075237, 332473074]

/-- A strongly regular matrix that is not a relabelling of any matrix in the list. -/
def Missing (v k l u : Nat) (sols : List Mat) : Prop :=
  ∃ m, Spec.IsSRG v k l u m ∧ ∀ m' ∈ sols, ¬ Spec.Relabels v m' m

theorem missing_of {v k l u r : Nat} {L : List (List Nat)} {w : List Nat}
    (hc : check v k l u w = true) (hl : ∀ a ∈ L, a.length = v)
    (h : ∀ a ∈ L, bitCliques v a r ≠ bitCliques v w r) : Missing v k l u (L.map (bitMat v)) := by
  refine ⟨bitMat v w, check_sound hc, ?_⟩
  intro m' hm'
  obtain ⟨a, ha, rfl⟩ := List.mem_map.1 hm'
  have hw : w.length = v := by
    have := (check_sound hc).adj.square
    simpa [bitMat] using this
  exact not_relabels (hl a ha) hw (h a ha)

theorem missing_entry : ∀ e ∈ entries, (e.v, e.k, e.l, e.u) ∈ gaps →
    Missing e.v e.k e.l e.u e.solutions := by
  have h25 : Missing 25 12 5 6 (p_25_12_5_6.map (bitMat 25)) :=
    missing_of (r := 5) (w := w_25_12_5_6) (by decide +kernel) (by decide +kernel)
      (by decide +kernel)
  have h26 : Missing 26 10 3 4 (p_26_10_3_4.map (bitMat 26)) :=
    missing_of (r := 4) (w := w_26_10_3_4) (by decide +kernel) (by decide +kernel)
      (by decide +kernel)
  have h29 : Missing 29 14 6 7 (p_29_14_6_7.map (bitMat 29)) :=
    missing_of (r := 4) (w := w_29_14_6_7) (by decide +kernel) (by decide +kernel)
      (by decide +kernel)
  intro e he hg
  have key : ∀ e ∈ entries, (e.v, e.k, e.l, e.u) ∈ gaps → e.name = "problem_25_12_5_6" ∨
      e.name = "problem_26_10_3_4" ∨ e.name = "problem_29_14_6_7" := by
    decide +kernel
  have e25 : ∀ e ∈ entries, e.name = "problem_25_12_5_6" →
      e = ⟨"problem_25_12_5_6", 25, 12, 5, 6, p_25_12_5_6⟩ := by unfold entries; simp
  have e26 : ∀ e ∈ entries, e.name = "problem_26_10_3_4" →
      e = ⟨"problem_26_10_3_4", 26, 10, 3, 4, p_26_10_3_4⟩ := by unfold entries; simp
  have e29 : ∀ e ∈ entries, e.name = "problem_29_14_6_7" →
      e = ⟨"problem_29_14_6_7", 29, 14, 6, 7, p_29_14_6_7⟩ := by unfold entries; simp
  rcases key e he hg with h | h | h
  · rw [e25 e he h]; exact h25
  · rw [e26 e he h]; exact h26
  · rw [e29 e he h]; exact h29

/-- **C47.**  The lists stored for (25,12,5,6), (26,10,3,4) and (29,14,6,7) leave out a strongly
regular graph. -/
theorem C47_missing {v k l u : Nat} {sols : List Mat} (hg : (v, k, l, u) ∈ gaps)
    (h : getSolutions modules v k l u = .ok sols) : Missing v k l u sols := by
  obtain ⟨name, rows, he, rfl⟩ := get_entry h
  exact missing_entry _ he hg

/-- **C47.**  So a stored list is complete exactly when its parameters are not in `gaps`. -/
theorem C47_complete_iff {v k l u : Nat} {sols : List Mat}
    (h : getSolutions modules v k l u = .ok sols) :
    Spec.Complete.{0} v k l u sols ↔ (v, k, l, u) ∉ gaps := by
  constructor
  · intro hc hg
    obtain ⟨m, hm, hn⟩ := C47_missing hg h
    obtain ⟨m', hm', hr⟩ := Complete.relabels hc (C41_stored_srg h).2 hm
    exact hn m' hm' hr
  · exact fun hg => C45_complete hg h

/-- **C47.**  For these parameters the search returns matrices that are not stored, even up to
isomorphism. -/
theorem C47_search_finds {v k l u : Nat} {sols : List Mat} (hg : (v, k, l, u) ∈ gaps)
    (h : getSolutions modules v k l u = .ok sols) {out : List Mat} (ho : IsOutput v k l u out) :
    ∃ m ∈ out, Spec.IsSRG v k l u m ∧ ∀ m' ∈ sols, ¬ Spec.Relabels v m' m := by
  obtain ⟨m, hm, hn⟩ := C47_missing hg h
  obtain ⟨name, rows, he, rfl⟩ := get_entry h
  have hg := entry_good he
  have hl := hg.l0
  have hk := hg.lk
  simp only at hl hk
  obtain ⟨s, out', h1, h2, m2, hm2, hd⟩ := C01_complete (graphOf v m) (graphOf_srg hm) hg.v3 hg.v66
    (Or.inl (by omega))
  obtain ⟨s', h1', h2'⟩ := ho
  rw [h1] at h1'
  cases h1'
  rw [h2] at h2'
  cases h2'
  obtain ⟨ha, -⟩ := C03_structure hg.v3 hg.v66 (Or.inl ⟨hl, hk⟩) ⟨s, h1, h2⟩ m2 hm2
  have hr : Spec.Relabels v m m2 := Depicts.relabels (graphOf_depicts hm) hd
    (isSRG_iff.1 hm).2.1 (fun i j => ent_zero_one ha.part i j)
  refine ⟨m2, hm2, isSRG_relabel hm ⟨ha.square, ha.part.rect⟩ hr, ?_⟩
  intro m' hm' hr'
  exact hn m' hm' (relabels_trans hr' (relabels_symm hr))

/-- Non-vacuity: the three lists exist; they have one, one and no matrices. -/
example : (getSolutions modules 25 12 5 6).map List.length = .ok 1 ∧
    (getSolutions modules 26 10 3 4).map List.length = .ok 1 ∧
    getSolutions modules 29 14 6 7 = .ok [] := by
  decide +kernel

end TDS
