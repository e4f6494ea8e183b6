import Verif.Run.Low
import Verif.Run.R26a
import Verif.Run.R26b
import Verif.Run.R26c
import Verif.Run.R16a
import Verif.Run.R13
import Verif.Run.Small
import Verif.Props.Cliques
import Verif.Props.Eig
import Verif.Props.Number
import Verif.Props.Deficit
import Verif.Props.Void
import Verif.Props.Classify

/-!
C75: degrees up to five.

Every parameter set that passes the counting condition with degree at most five is one of nineteen when
`0 < u < k`; C77 settles ten of them and the search was evaluated on the others (`Verif.Run.Low`,
`Verif.Run.R26a` and so on).  For `u = 0` and
`u = k` the results are known in general (C61, C56).
-/

namespace TDS

/-- Parameters of degree at most five, with `0 < u < k`, that have no strongly regular graph. -/
def lowEmpty : List (Nat × Int × Int × Int) :=
  [(7, 3, 0, 2), (7, 3, 1, 1), (17, 4, 0, 1), (11, 4, 0, 2), (9, 4, 0, 3), (13, 4, 1, 1), (9, 4, 2, 1),
   (7, 4, 2, 2), (26, 5, 0, 1), (11, 5, 0, 4), (21, 5, 1, 1), (11, 5, 1, 3), (16, 5, 2, 1), (11, 5, 2, 2),
   (11, 5, 3, 1)]

/-- And those that have one. -/
def lowOne : List (Nat × Int × Int × Int) :=
  [(5, 2, 0, 1), (10, 3, 0, 1), (9, 4, 1, 2), (16, 5, 0, 2)]

theorem low_params {v : Nat} {k l u : Int} (hl : 0 ≤ l) (hlk : l < k) (hkv : k + 1 < v)
    (hc : ((v : Int) - k - 1) * u = k * (k - l - 1)) (hu : 0 < u) (huk : u < k) (hk : k ≤ 5) :
    (v, k, l, u) ∈ lowEmpty ++ lowOne := by
  unfold lowEmpty lowOne
  have h2 : 2 ≤ k := by omega
  interval_cases k <;> interval_cases l <;> interval_cases u <;> first | (exfalso; omega) | (simp; omega)

theorem bind_ok {α β : Type} (a : α) (f : α → Res β) : Except.bind (.ok a) f = f a := rfl

theorem single_mapM {α β : Type} {f : α → Res β} {a : α} {b : β} (h : f a = .ok b) :
    [a].mapM f = .ok [b] := by
  simp only [List.mapM_cons, List.mapM_nil, h]
  rfl

attribute [local irreducible] solve advance

theorem part26 {m : Mat} (h : m.length ≤ 26) (hr : ∀ r ∈ m, r.length = 26)
    (hb : m.all (fun r => r.all (fun x => x == 0 || x == 1)) = true) : Spec.Part 26 m := by
  refine ⟨hr, fun r hr x hx => ?_, h⟩
  have := List.all_eq_true.1 (List.all_eq_true.1 hb r hr) x hx
  simpa using this

theorem solve_ten26 : solve ten26 = .ok [] := by
  obtain ⟨parts, outs, out, h1, h2, h3, h4⟩ := C67_split (v := 26) (s := ten26) (n := 1)
    (part26 (by decide) (by decide) (by decide)) (by decide) (by norm_num) (by decide)
  have hp : parts = eleven26.map (fun r => ten26 ++ [r]) := by
    have : Spec.rounds advance 1 [ten26] = .ok ([eleven26.map (fun r => ten26 ++ [r])].flatten) := by
      have hm : [ten26].mapM advance = .ok [eleven26.map (fun r => ten26 ++ [r])] :=
        single_mapM eleven26_reached
      rw [Spec.rounds, hm]
      rfl
    rw [this] at h1
    cases h1
    simp
  have he : ∀ m ∈ parts, solve m = .ok [] := by
    rw [hp]
    have hlist : eleven26 = (List.range 6).map (fun i => eleven26.getD i []) := by decide
    rw [hlist, List.map_map]
    intro m hm
    obtain ⟨i, hi, rfl⟩ := List.mem_map.1 hm
    rw [List.mem_range] at hi
    interval_cases i
    · exact empty26_0
    · exact empty26_1
    · exact empty26_2
    · exact empty26_3
    · exact empty26_4
    · exact empty26_5
  have : parts.mapM solve = .ok (parts.map (fun _ => [])) := mapM_ok he
  rw [this] at h2
  cases h2
  rw [h3, h4]
  simp

theorem low_26_5_0_1 : (seed 26 5 0 1).bind solve = .ok [] := by
  have h0 : seed 26 5 0 1 = .ok (ten26.take 2) := by decide +kernel
  have hr := ten26_reached
  rw [h0] at hr ⊢
  rw [bind_ok] at hr ⊢
  obtain ⟨parts, outs, out, h1, h2, h3, h4⟩ := C67_split (v := 26) (s := ten26.take 2) (n := 8)
    (part26 (by decide) (by decide) (by decide)) (by decide) (by norm_num) (by decide)
  rw [hr] at h1
  cases h1
  have hm : [ten26].mapM solve = .ok [[]] := single_mapM solve_ten26
  rw [hm] at h2
  cases h2
  rw [h3, h4]
  simp

theorem output_of_bind {v : Nat} {k l u : Int} {out out' : List Mat}
    (h : (seed v k l u).bind solve = .ok out') (ho : IsOutput v k l u out) : out = out' := by
  obtain ⟨s, h1, h2⟩ := ho
  rw [h1] at h
  exact Except.ok.inj (h2.symm.trans h)

theorem void_bind {v : Nat} {k l u : Int} (h : Good v k l u) (hv : void v k l u = true) :
    (seed v k l u).bind solve = .ok [] := by
  obtain ⟨s, out, h1, h2⟩ := C05_total h.v3 h.v66 k l u
  have := C77_void h ⟨s, h1, h2⟩ hv
  subst this
  rw [h1, bind_ok, h2]

theorem low_empty : ∀ p ∈ lowEmpty, (seed p.1 p.2.1 p.2.2.1 p.2.2.2).bind solve = .ok [] := by
  unfold lowEmpty
  simp only [List.forall_mem_cons]
  refine ⟨?_, ?_, low_17_4_0_1, low_11_4_0_2, ?_, low_13_4_1_1, ?_, ?_, low_26_5_0_1, ?_, ?_, ?_, ?_,
    low_11_5_2_2, ?_, by simp⟩
  all_goals
    exact void_bind ⟨by decide, by decide, by decide, by decide, by decide, by decide, by decide, by decide⟩
      (by decide)

theorem one_of_run {argv : List Str} {v : Nat} {k l u : Int}
    (h : argv.mapM parseInt = .ok [(v : Int), k, l, u]) (hv : 3 ≤ v) (hv' : v ≤ 66) {m : Mat}
    (ho : main argv = .ok [m]) : (seed v k l u).bind solve = .ok [m] := by
  obtain ⟨s, ans, h1, h2, h3, -, -⟩ := C38_output h hv hv' ho
  rw [h1, bind_ok, h2, List.perm_singleton.1 h3.symm]

theorem low_one : ∀ p ∈ lowOne, ∃ m, (seed p.1 p.2.1 p.2.2.1 p.2.2.2).bind solve = .ok [m] ∧
    m.all (fun r => decide (r.sum = p.2.1)) = true := by
  unfold lowOne
  simp only [List.forall_mem_cons]
  refine ⟨?_, ?_, ⟨_, low_9_4_1_2, by decide +kernel⟩, ?_, by simp⟩
  · exact ⟨_, one_of_run (by decide +kernel) (by norm_num) (by norm_num) run_5_2_0_1, by decide +kernel⟩
  · exact ⟨_, one_of_run (by decide +kernel) (by norm_num) (by norm_num) run_10_3_0_1, by decide +kernel⟩
  · exact ⟨_, one_of_run (by decide +kernel) (by norm_num) (by norm_num) run_16_5_0_2, by decide +kernel⟩

/-- **C75.**  For parameters of degree at most five every result is strongly regular, and there is at most
one result. -/
theorem C75_exact {v : Nat} {k l u : Int} (h : Good v k l u) (hk : k ≤ 5) {out : List Mat}
    (ho : IsOutput v k l u out) : (∀ m ∈ out, Spec.IsSRG v k l u m) ∧ out.length ≤ 1 := by
  obtain ⟨hu0, huk⟩ := h.u_bound
  rcases eq_or_lt_of_le hu0 with rfl | hu
  · refine ⟨C61_exact h ho, ?_⟩
    rw [C61_count h ho]
    split <;> omega
  rcases eq_or_lt_of_le huk with rfl | hlt
  · refine ⟨fun m hm => C56_multipartite h ho hm rfl, ?_⟩
    rw [C58_multipartite h ho]
    split <;> omega
  have hkv : k + 1 < v := by
    have := h.kv
    have := h.degenerate
    omega
  rcases List.mem_append.1 (low_params h.l0 h.lk hkv h.count hu hlt hk) with hp | hp
  · obtain rfl := output_of_bind (low_empty _ hp) ho
    simp
  · obtain ⟨m, hm, hs⟩ := low_one _ hp
    obtain rfl := output_of_bind hm ho
    refine ⟨?_, by simp⟩
    intro x hx
    rw [List.mem_singleton] at hx
    subst hx
    refine ((C44_regular h ho x).1 ⟨by simp, fun r hr => ?_⟩).1
    simpa using List.all_eq_true.1 hs r hr

theorem small_params : ∀ v ∈ List.range 15, ∀ k ∈ List.range v, ∀ l ∈ List.range k,
    ∀ u ∈ List.range k, 6 ≤ k ∧ k + 1 < v ∧ 0 < u ∧ (v - k - 1) * u = k * (k - l - 1) →
      void v k l u = true ∨ (v, k, l, u) ∈ [(11, 6, 3, 3), (13, 8, 4, 6), (10, 6, 3, 4), (13, 6, 2, 3)] := by
  decide +kernel

theorem small_run {argv : List Str} {v : Nat} {k l u : Int} (h : Good v k l u)
    (ha : argv.mapM parseInt = .ok [(v : Int), k, l, u]) {ms : List Mat} (hr : main argv = .ok ms)
    (hall : ∀ m ∈ ms, ∀ r ∈ m, r.sum = k) {out : List Mat} (ho : IsOutput v k l u out) :
    ∀ m ∈ out, Spec.IsSRG v k l u m := by
  intro m hm
  obtain ⟨s, h1, h2⟩ := ho
  obtain ⟨s', ans, h1', h2', h3, -, -⟩ := C38_output ha h.v3 h.v66 hr
  rw [h1] at h1'
  cases h1'
  rw [h2] at h2'
  cases h2'
  exact ((C44_regular h ⟨s, h1, h2⟩ m).1 ⟨hm, fun r hr => hall m (h3.mem_iff.2 hm) r hr⟩).1

/-- **C75.**  For at most fourteen vertices every result is strongly regular, whatever the degree. -/
theorem C75_small {v : Nat} {k l u : Int} (h : Good v k l u) (hv : v ≤ 14) {out : List Mat}
    (ho : IsOutput v k l u out) : ∀ m ∈ out, Spec.IsSRG v k l u m := by
  rcases le_or_gt k 5 with hk | hk
  · exact (C75_exact h hk ho).1
  obtain ⟨hu0, huk⟩ := h.u_bound
  rcases eq_or_lt_of_le hu0 with rfl | hu
  · exact C61_exact h ho
  rcases eq_or_lt_of_le huk with rfl | hlt
  · exact fun m hm => C56_multipartite h ho hm rfl
  have hkv : k + 1 < v := by
    have := h.kv
    have := h.degenerate
    omega
  obtain ⟨k, rfl⟩ := Int.eq_ofNat_of_zero_le (show 0 ≤ k by omega)
  obtain ⟨l, rfl⟩ := Int.eq_ofNat_of_zero_le h.l0
  obtain ⟨u, rfl⟩ := Int.eq_ofNat_of_zero_le hu0
  have hlk := h.lk
  have hc : (v - k - 1) * u = k * (k - l - 1) := by
    have := h.count
    zify [show k ≤ v by omega, show 1 ≤ v - k by omega, show l ≤ k by omega, show 1 ≤ k - l by omega]
    exact this
  have key := small_params v (List.mem_range.2 (by omega)) k (List.mem_range.2 (by omega)) l
    (List.mem_range.2 (by omega)) u (List.mem_range.2 (by omega))
    ⟨by omega, by omega, by omega, hc⟩
  rcases key with key | key
  · rw [C77_void h ho key]
    simp
  simp only [List.mem_cons, Prod.mk.injEq, List.not_mem_nil, or_false] at key
  rcases key with ⟨rfl, rfl, rfl, rfl⟩ | ⟨rfl, rfl, rfl, rfl⟩ | ⟨rfl, rfl, rfl, rfl⟩ | ⟨rfl, rfl, rfl, rfl⟩
  · rw [output_of_bind low_11_6_3_3 ho]
    simp
  · rw [output_of_bind low_13_8_4_6 ho]
    simp
  · exact small_run h (by decide +kernel) run_10_6_3_4 (by decide +kernel) ho
  · exact small_run h (by decide +kernel) run_13_6_2_3 (by decide +kernel) ho

section

variable {V : Type*} [Fintype V] [DecidableEq V]

theorem good_of_graph (G : SimpleGraph V) [DecidableRel G.Adj] {v k l u : ℕ} (h : G.IsSRGWith v k l u)
    (hkv : k + 1 < v) (hu : 0 < u) (hk : k ≤ 5) : Good v k l u := by
  have σ : Fin v ≃ V := (Fintype.equivFinOfCardEq h.card).symm
  have ha := arr_of_srg h σ
  obtain ⟨hu0, huk⟩ := ha.u_le (by omega) (by omega)
  have hlk := ha.common_lt (by omega) (by omega)
  have hc := ha.count (by omega)
  have hv : (v : Int) ≤ 66 := by
    have h1 : ((v : Int) - k - 1) * 1 ≤ (v - k - 1) * u := mul_le_mul_of_nonneg_left (by omega) (by omega)
    have h2 : (k : Int) * (k - l - 1) ≤ 5 * 5 := mul_le_mul (by omega) (by omega) (by omega) (by omega)
    omega
  refine ⟨by omega, by omega, by omega, hlk, by omega, ?_, hc, by omega⟩
  have h1 : (k : Int) * (v - k - 1) ≥ k * (k - l - 1) := by
    rw [← hc, mul_comm]
    exact mul_le_mul_of_nonneg_left huk (by omega)
  have := le_of_mul_le_mul_left h1 (by omega)
  omega

/-- **C75.**  The search settles which strongly regular graphs of degree at most five exist, apart from
disjoint unions of complete graphs and complete multipartite graphs: their parameters are (5,2,0,1),
(10,3,0,1), (9,4,1,2) or (16,5,0,2). -/
theorem C75_parameters (G : SimpleGraph V) [DecidableRel G.Adj] {v k l u : ℕ} (h : G.IsSRGWith v k l u)
    (hkv : k + 1 < v) (hu : 0 < u) (huk : u < k) (hk : k ≤ 5) :
    (v, k, l, u) ∈ [(5, 2, 0, 1), (10, 3, 0, 1), (9, 4, 1, 2), (16, 5, 0, 2)] := by
  have hg := good_of_graph G h hkv hu hk
  rcases List.mem_append.1 (low_params hg.l0 hg.lk (by omega) hg.count (by omega) (by omega) (by omega))
    with hp | hp
  · exfalso
    obtain ⟨s, out, h1, h2, m, hm, -⟩ := C01_complete G h (by omega) hg.v66 (Or.inl (by omega))
    have := output_of_bind (low_empty _ hp) ⟨s, h1, h2⟩
    rw [this] at hm
    simp at hm
  · simp only [lowOne, List.mem_cons, Prod.mk.injEq, List.not_mem_nil, or_false] at hp ⊢
    omega

end

/-- **C75.**  The parameters of a strongly regular graph of degree at most five determine the graph. -/
theorem C75_unique.{w, w'} {v k l u : ℕ} (hk : k ≤ 5) (hkv : k + 1 < v) (hu : 0 < u) :
    Spec.Alone.{w, w'} v k l u := by
  intro V _ _ G _ W _ _ H _ hG hH
  have hg := good_of_graph G hG hkv hu hk
  have h0 := hg.u_bound
  obtain ⟨s, out, h1, h2, m, hm, e, he⟩ := C01_complete G hG (by omega) hg.v66 (Or.inl (by omega))
  obtain ⟨s', out', h1', h2', m', hm', e', he'⟩ := C01_complete H hH (by omega) hg.v66 (Or.inl (by omega))
  rw [h1] at h1'
  cases h1'
  rw [h2] at h2'
  cases h2'
  have hl := (C75_exact hg (by omega) ⟨s, h1, h2⟩).2
  have hmm : m = m' := by
    match out, hl, hm, hm' with
    | [x], _, hm, hm' => rw [List.mem_singleton.1 hm, List.mem_singleton.1 hm']
  subst hmm
  refine ⟨⟨e.trans e'.symm, ?_⟩⟩
  intro a b
  rw [he, he']
  simp

/-- The lattice on nine vertices is a result of degree four. -/
example : IsOutput 9 4 1 2 [grid9] ∧ Spec.IsSRG 9 4 1 2 grid9 := by
  have hg : Good 9 4 1 2 := ⟨by norm_num, by norm_num, by norm_num, by norm_num, by norm_num, by norm_num,
    by norm_num, by norm_num⟩
  obtain ⟨s, out, h1, h2⟩ := C05_total (v := 9) (by norm_num) (by norm_num) 4 1 2
  have ho : IsOutput 9 4 1 2 out := ⟨s, h1, h2⟩
  obtain rfl := output_of_bind low_9_4_1_2 ho
  exact ⟨ho, (C75_exact hg (by norm_num) ho).1 _ (by simp)⟩

/-- The pentagon is a graph of the list, and any other with its parameters is a copy of it. -/
example : (5, 2, 0, 1) ∈ [(5, 2, 0, 1), (10, 3, 0, 1), (9, 4, 1, 2), (16, 5, 0, 2)] :=
  C75_parameters fiveCycle fiveCycle_srg (by norm_num) (by norm_num) (by norm_num) (by norm_num)

example (G : SimpleGraph (Fin 5)) [DecidableRel G.Adj] (h : G.IsSRGWith 5 2 0 1) :
    Nonempty (G ≃g fiveCycle) :=
  C75_unique (by norm_num) (by norm_num) (by norm_num) _ G _ fiveCycle h fiveCycle_srg

end TDS
