import Verif.Model.Tests
import Verif.Proof.Identity
import Verif.Props.Check
import Verif.Props.Classify

/-! C48, C49: what the tests accept. -/

namespace TDS

open Finset

theorem forM_ok {α : Type} {f : α → Res Unit} : ∀ {l : List α},
    l.forM f = .ok () ↔ ∀ a ∈ l, f a = .ok ()
  | [] => by simp [List.forM, pure, Except.pure]
  | a :: t => by
    rw [show (a :: t).forM f = (f a >>= fun _ => t.forM f) from rfl, bind_eq_ok,
      List.forall_mem_cons, ← forM_ok (l := t)]
    constructor
    · rintro ⟨_, h1, h2⟩
      exact ⟨h1, h2⟩
    · rintro ⟨h1, h2⟩
      exact ⟨(), h1, h2⟩

theorem pyAssert_ok {b : Bool} : pyAssert b = .ok () ↔ b = true := by
  cases b <;> simp [pyAssert]

theorem ncols_square {v : Nat} {A : Mat} (hv : 0 < v) (hA : Spec.Square v A) : ncols A = v := by
  cases A with
  | nil => have := hA.rows; simp at this; omega
  | cons r t => exact hA.rect r (by simp)

theorem matMul_square {v : Nat} {A B : Mat} (hv : 0 < v) (hA : Spec.Square v A)
    (hB : Spec.Square v B) : Tests.matMul A B =
      .ok (matOf v (fun i j => ∑ t ∈ range v, Spec.ent A i t * Spec.ent B t j) v) := by
  unfold Tests.matMul
  rw [ncols_square hv hA, ncols_square hv hB, hB.rows, if_pos rfl]
  congr 1
  apply List.ext_getElem
  · simp [matOf, hA.rows]
  · intro i hi hi'
    have hi2 : i < A.length := by simpa using hi
    simp only [matOf, List.getElem_map, List.getElem_range]
    refine List.map_congr_left fun j _ => ?_
    rw [dot_eq_sum (n := v) (hA.rect _ (List.getElem_mem _)) (by simp [col, hB.rows]),
      list_sum_range]
    refine Finset.sum_congr rfl fun t ht => ?_
    have ht' : t < B.length := by rw [hB.rows]; simpa using ht
    unfold Spec.ent col
    rw [List.getD_eq_getElem _ _ (by simpa using ht' : t < (B.map _).length), List.getElem_map,
      List.getD_eq_getElem A _ hi2, List.getD_eq_getElem B _ ht']

theorem constMat_eq {v : Nat} {k u : Int} (hk : -128 ≤ k) (hk' : k ≤ 127) (hu : -128 ≤ u)
    (hu' : u ≤ 127) (hku : -128 ≤ k - u) (hku' : k - u ≤ 127) : Tests.constMat v k u =
      matOf v (fun i j => (k - u) * (if i = j then 1 else 0) + u) v := by
  unfold Tests.constMat matOf Utils.delta
  refine List.map_congr_left fun i _ => List.map_congr_left fun j _ => ?_
  split
  · rw [mul_one, i8_of_range hku hku', i8_of_range hu hu', i8_of_range (by omega) (by omega)]
    simp_all
  · rw [mul_zero, i8_of_range (x := 0) (by omega) (by omega), i8_of_range hu hu', zero_add,
      i8_of_range hu hu']
    simp_all

theorem zipWith_square {v : Nat} {A B : Mat} (f : Int → Int → Int) (hA : Spec.Square v A)
    (hB : Spec.Square v B) : List.zipWith (List.zipWith f) A B =
      matOf v (fun i j => f (Spec.ent A i j) (Spec.ent B i j)) v := by
  apply List.ext_getElem
  · simp [matOf, hA.rows, hB.rows]
  · intro i hi hi'
    have hiA : i < A.length := by simp at hi; exact hi.1
    have hiB : i < B.length := by simp at hi; exact hi.2
    simp only [matOf, List.getElem_map, List.getElem_range, List.getElem_zipWith]
    have l1 := hA.rect _ (List.getElem_mem hiA)
    have l2 := hB.rect _ (List.getElem_mem hiB)
    apply List.ext_getElem
    · simp [l1, l2]
    · intro j hj hj'
      have hjA : j < A[i].length := by simp at hj; exact hj.1
      have hjB : j < B[i].length := by simp at hj; exact hj.2
      simp only [List.getElem_map, List.getElem_range, List.getElem_zipWith]
      unfold Spec.ent
      rw [List.getD_eq_getElem A _ hiA, List.getD_eq_getElem B _ hiB,
        List.getD_eq_getElem _ _ hjA, List.getD_eq_getElem _ _ hjB]

theorem matOf_inj {v : Nat} {M N : Nat → Nat → Int} :
    matOf v M v = matOf v N v ↔ ∀ i < v, ∀ j < v, M i j = N i j := by
  constructor
  · intro h i hi j hj
    rw [← ent_matOf (M := M) hi hj, h, ent_matOf hi hj]
  · intro h
    exact square_ext (matOf_square _ _) (matOf_square _ _)
      (fun i hi j hj => by rw [ent_matOf hi hj, ent_matOf hi hj, h i hi j hj])

theorem identityCheck_ok {v : Nat} {k l u : Int} {m : Mat} (hv : 0 < v) (hs : Spec.Square v m)
    (hk : -128 ≤ k) (hk' : k ≤ 127) (hu : -128 ≤ u) (hu' : u ≤ 127) (hku : -128 ≤ k - u)
    (hku' : k - u ≤ 127) : Tests.identityCheck v k l u m = .ok () ↔
      Quad k l u (fun i j : Fin v => Spec.ent m i j) := by
  unfold Tests.identityCheck
  rw [matMul_square hv hs hs, ok_bind, pyAssert_ok, zipWith_square _ (matOf_square _ _) hs,
    constMat_eq hk hk' hu hu' hku hku']
  have hr : ∀ M : Nat → Nat → Int, ∀ r ∈ matOf v M v, r.length = ncols (matOf v M v) := by
    intro M r hr
    rw [ncols_square hv (matOf_square v M)]
    exact (matOf_square v M).rect r hr
  rw [arrayEq2_iff (hr _) (hr _), matOf_inj]
  unfold Quad
  constructor
  · intro h i j
    have := h i i.2 j j.2
    rw [ent_matOf i.2 j.2, Finset.sum_range] at this
    simp only [Fin.ext_iff]
    linarith
  · intro h i hi j hj
    have := h ⟨i, hi⟩ ⟨j, hj⟩
    simp only [Fin.ext_iff] at this
    rw [ent_matOf hi hj, Finset.sum_range]
    linarith

/-- A 0/1 matrix with zero diagonal, as the stored ones are written. -/
structure Loopless (v : Nat) (m : Mat) : Prop where
  square : Spec.Square v m
  bin : ∀ r ∈ m, Spec.Bin r
  diag : ∀ i < v, Spec.ent m i i = 0

theorem Loopless.simple {v : Nat} {m : Mat} (h : Loopless v m) :
    Simple (fun i j : Fin v => Spec.ent m i j) :=
  ⟨fun i j => (bin_iff h.square).1 h.bin i i.2 j j.2, fun i => h.diag i i.2⟩

theorem loopless_of_isSRG {v : Nat} {k l u : Int} {m : Mat} (h : Spec.IsSRG v k l u m) :
    Loopless v m :=
  ⟨⟨h.adj.square, h.adj.part.rect⟩, h.adj.part.bin, fun i hi => (isSRG_iff.1 h).2.2.1 ⟨i, hi⟩⟩

/-- Parameters within reach of the test: feasible, in the range of int8. -/
structure Feasible (v : Nat) (k l u : Int) : Prop where
  v1 : 1 ≤ v
  v127 : v ≤ 127
  l0 : 0 ≤ l
  lk : l ≤ k
  kv : k < v
  u0 : 0 ≤ u
  uk : u ≤ k
  count : ((v : Int) - k - 1) * u = k * (k - l - 1)

/-- **C48.**  `test_srg_matrix_identity` passes exactly when every matrix of the list is strongly
regular with the given parameters; neither symmetry nor the row sums are presupposed. -/
theorem C48_identity {v : Nat} {k l u : Int} (h : Feasible v k l u) {db : List Mat}
    (hdb : ∀ m ∈ db, Loopless v m) : Tests.testIdentity v k l u db = .ok () ↔
      ∀ m ∈ db, Spec.IsSRG v k l u m := by
  obtain ⟨hv, hv', hl, hlk, hkv, hu, huk, hc⟩ := h
  have key : ∀ m ∈ db, (Tests.identityCheck v k l u m = .ok () ↔
      Quad k l u (fun i j : Fin v => Spec.ent m i j)) := fun m hm =>
    identityCheck_ok hv (hdb m hm).square (by omega) (by omega) (by omega) (by omega) (by omega)
      (by omega)
  have keyc : ∀ m', Spec.Square v m' →
      (Tests.identityCheck v (v - k - 1) (v - 2 - 2 * k + u) (v - 2 * k + l) m' = .ok () ↔
      Quad (v - k - 1) (v - 2 - 2 * k + u) (v - 2 * k + l)
        (fun i j : Fin v => Spec.ent m' i j)) := fun m' hm' =>
    identityCheck_ok hv hm' (by omega) (by omega) (by omega) (by omega) (by omega) (by omega)
  unfold Tests.testIdentity
  rw [bind_eq_ok]
  simp only [forM_ok, bind_eq_ok]
  constructor
  · rintro ⟨_, h1, h2⟩ m hm
    rw [forM_ok] at h1
    have hq := (key m hm).1 (h1 m hm)
    have hsim := (hdb m hm).simple
    by_cases hu0 : 0 < u
    · exact isSRG_of_quad (hdb m hm).square hsim hq
        (hq.deg hsim hu0 (by omega) (by simpa using hc))
    · have hu0 : u = 0 := by omega
      by_cases hcu : 0 < (v : Int) - 2 * k + l
      · obtain ⟨m', e1, e2⟩ := h2 m hm
        obtain ⟨m'', g1, g2, g3⟩ := complement_spec (hdb m hm).square hv
          ((bin_iff (hdb m hm).square).1 (hdb m hm).bin)
        rw [g1] at e1
        obtain rfl : m'' = m' := by simpa using e1
        have hq' := (keyc m'' g2).1 e2
        have hsim' : Simple (fun i j : Fin v => Spec.ent m'' i j) := by
          constructor
          · intro i j
            rw [g3 i i.2 j j.2]
            by_cases hij : (i : Nat) = j
            · rw [hij, (hdb m hm).diag j j.2]; simp
            · rw [if_neg hij]
              rcases hsim.bin i j with e | e <;> rw [e] <;> simp
          · intro i
            rw [g3 i i.2 i i.2, (hdb m hm).diag i i.2]
            simp
        have hsrg := isSRG_of_quad g2 hsim' hq' (hq'.deg hsim' hcu (by omega) (by
          simp only [Fintype.card_fin]
          nlinarith [hc]))
        obtain ⟨m3, k', l', u', c1, c2, c3⟩ := C29_complement hv hsrg
        have hinv := C30_involution hv (hdb m hm).square (hdb m hm).bin (hdb m hm).diag
        rw [g1, ok_bind, c1] at hinv
        obtain rfl : m3 = m := by simpa using hinv
        have hp := C30_params v k l u
        simp only [Utils.complementVklu, Prod.mk.injEq] at hp c2
        obtain ⟨-, p1, p2, p3⟩ := hp
        obtain ⟨-, q1, q2, q3⟩ := c2
        rw [← q1, ← q2, ← q3, p1, p2, p3] at c3
        exact c3
      · have hfull : (v : Int) - 1 ≤ k := by
          by_contra hlt
          have : k * (k - l - 1) = 0 := by rw [← hc, hu0, mul_zero]
          rcases mul_eq_zero.1 this with e | e
          · omega
          · omega
        exact isSRG_of_quad (hdb m hm).square hsim hq
          (hq.deg_of_full hsim (by simpa using hfull))
  · intro h
    refine ⟨(), forM_ok.2 fun m hm => (key m hm).2 (quad_of_isSRG (h m hm)), fun m hm => ?_⟩
    obtain ⟨m', k', l', u', c1, c2, c3⟩ := C29_complement hv (h m hm)
    simp only [Utils.complementVklu, Prod.mk.injEq] at c2
    obtain ⟨-, q1, q2, q3⟩ := c2
    refine ⟨m', c1, ?_⟩
    rw [← q1, ← q2, ← q3] at c3
    exact (keyc m' ⟨c3.adj.square, c3.adj.part.rect⟩).2 (quad_of_isSRG c3)

/-- A solution of one parameter set with ones put on its diagonal. -/
def looped : Mat :=
  ((Database.p_16_5_0_2.map (Database.bitMat 16)).headD []).mapIdx
    (fun i r => r.mapIdx (fun j x => x + Utils.delta i j))

/-- **C48**, the diagonal: the test does not look at it, and accepts as a solution of
(16, 6, 2, 2) a matrix all of whose vertices have a loop. -/
theorem C48_diagonal_needed : Tests.testIdentity 16 6 2 2 [looped] = .ok () ∧
    (∀ i < 16, Spec.ent looped i i = 1) ∧ ¬ Spec.IsSRG 16 6 2 2 looped := by
  refine ⟨by decide +kernel, by decide +kernel, fun h => ?_⟩
  have h1 := (isSRG_iff.1 h).2.2.1 0
  revert h1
  decide +kernel

theorem dot_skip {r s : Vec} {n : Nat} (hl : r.length = s.length) (hn : n < s.length)
    (h0 : s.getD n 0 = 0) :
    dot (r.take n) (s.take n) + dot (r.drop (n + 1)) (s.drop (n + 1)) = dot r s := by
  have hr : n < r.length := by omega
  have e : dot r s = dot (r.take n ++ r.drop n) (s.take n ++ s.drop n) := by
    rw [List.take_append_drop, List.take_append_drop]
  rw [e, dot_append (by simp [hl]), List.drop_eq_getElem_cons hr, List.drop_eq_getElem_cons hn,
    dot_cons]
  rw [List.getD_eq_getElem _ _ hn] at h0
  rw [h0, mul_zero, zero_add]

theorem propertyRow_ok {v : Nat} {l u : Int} {m : Mat} (h : Loopless v m)
    (hsy : Spec.Symmetric v m) {n : Nat} (hn : n < v) : Tests.propertyRow l u m n = .ok () ↔
      ∀ i < n, Spec.meet (m.getD i []) (m.getD n []) = if Spec.ent m i n = 1 then l else u := by
  have hml := h.square.rows
  have hnl : n < m.length := by omega
  have hrow : ∀ i, i < v → (m.getD i []).length = v := by
    intro i hi
    rw [List.getD_eq_getElem _ _ (by omega)]
    exact h.square.rect _ (List.getElem_mem _)
  have hpiv : col (m.take n) n = (m.getD n []).take n := by
    apply List.ext_getElem
    · rw [List.length_take, hrow n hn]
      simp [col, hml]
    · intro i hi hi'
      have hin : i < n := by simp [col] at hi; exact hi.1
      simp only [col, List.getElem_map, List.getElem_take]
      have := hsy i (by omega) n hn
      unfold Spec.ent at this
      rw [List.getD_eq_getElem m _ (by omega : i < m.length),
        List.getD_eq_getElem (m.getD n []) _ (by rw [hrow n hn]; omega)] at this
      exact this
  have hd : (m.getD n []).getD n 0 = 0 := h.diag n hn
  unfold Tests.propertyRow
  simp only []
  rw [pyAssert_ok, arrayEq1_iff]
  have e2 : (col (m.take n) n).map (fun e => if e ≠ 0 then l else u) =
      (m.take n).map (fun r => if r.getD n 0 ≠ 0 then l else u) := by
    rw [col, List.map_map]
    rfl
  rw [e2, List.map_inj_left, hpiv]
  have hval : ∀ i < n, (dot ((m.getD i []).take n) ((m.getD n []).take n) +
      dot ((m.getD i []).drop (n + 1)) ((m.getD n []).drop (n + 1)) =
        (if (m.getD i []).getD n 0 ≠ 0 then l else u)) ↔
      Spec.meet (m.getD i []) (m.getD n []) = if Spec.ent m i n = 1 then l else u := by
    intro i hi
    rw [dot_skip (by rw [hrow i (by omega), hrow n hn]) (by rw [hrow n hn]; exact hn) hd,
      dot_eq_sum (n := v) (hrow i (by omega)) (hrow n hn)]
    have : (if (m.getD i []).getD n 0 ≠ 0 then l else u) = if Spec.ent m i n = 1 then l else u := by
      have hb := (bin_iff h.square).1 h.bin i (by omega) n hn
      unfold Spec.ent at hb ⊢
      rcases hb with e | e <;> rw [e] <;> simp
    rw [this]
    unfold Spec.meet
    rw [hrow i (by omega)]
  constructor
  · intro hall i hi
    rw [← hval i hi]
    refine hall (m.getD i []) ?_
    rw [List.getD_eq_getElem _ _ (by omega : i < m.length)]
    exact List.mem_take_iff_getElem.2 ⟨i, by simp; omega, rfl⟩
  · intro hall r hr
    obtain ⟨i, hi, rfl⟩ := List.mem_take_iff_getElem.1 hr
    have hin : i < n := by omega
    have := (hval i hin).2 (hall i hin)
    rwa [List.getD_eq_getElem m _ (by omega : i < m.length)] at this

/-- **C48.**  `test_matrix_property` checks the common neighbours of all pairs of vertices except
those of the last vertex, and nothing else. -/
theorem C48_property {v : Nat} {l u : Int} {db : List Mat} (hdb : ∀ m ∈ db, Loopless v m)
    (hsy : ∀ m ∈ db, Spec.Symmetric v m) : Tests.testProperty v l u db = .ok () ↔
      ∀ m ∈ db, ∀ i j, i < j → j + 1 < v →
        Spec.meet (m.getD i []) (m.getD j []) = if Spec.ent m i j = 1 then l else u := by
  unfold Tests.testProperty
  simp only [forM_ok]
  refine forall_congr' fun m => forall_congr' fun hm => ?_
  constructor
  · intro h i j hij hj
    have := h j (by rw [List.mem_range'_1]; omega)
    exact (propertyRow_ok (hdb m hm) (hsy m hm) (by omega)).1 this i hij
  · intro h n hn
    rw [List.mem_range'_1] at hn
    exact (propertyRow_ok (hdb m hm) (hsy m hm) (by omega)).2 (fun i hi => h i n hi (by omega))

/-- **C48.**  Solutions pass `test_matrix_property`. -/
theorem C48_property_accepts {v : Nat} {k l u : Int} {db : List Mat}
    (h : ∀ m ∈ db, Spec.IsSRG v k l u m) : Tests.testProperty v l u db = .ok () := by
  refine (C48_property (fun m hm => loopless_of_isSRG (h m hm)) (fun m hm i hi j hj =>
    (isSRG_iff.1 (h m hm)).2.2.2.1 ⟨i, hi⟩ ⟨j, hj⟩)).2 fun m hm i j hij hj => ?_
  exact (h m hm).meet i (by omega) j (by omega) (by omega)

/-- **C48.**  So does the star with four rays, offered as a solution of (5, 2, 0, 1). -/
theorem C48_property_weak : Tests.testProperty 5 0 1 [[[0, 0, 0, 0, 1], [0, 0, 0, 0, 1],
      [0, 0, 0, 0, 1], [0, 0, 0, 0, 1], [1, 1, 1, 1, 0]]] = .ok () ∧
    ¬ Spec.IsSRG 5 2 0 1 [[0, 0, 0, 0, 1], [0, 0, 0, 0, 1],
      [0, 0, 0, 0, 1], [0, 0, 0, 0, 1], [1, 1, 1, 1, 0]] := by
  refine ⟨by decide +kernel, fun h => ?_⟩
  have := h.deg [0, 0, 0, 0, 1] (by simp)
  revert this
  decide

/-- **C48**, the stored lists: both tests pass on every one of them. -/
theorem C48_stored {v k l u : Nat} {sols : List Mat}
    (h : Database.getSolutions Database.modules v k l u = .ok sols) :
    Tests.testIdentity v k l u sols = .ok () ∧ Tests.testProperty v l u sols = .ok () := by
  have hs := (C41_stored_srg h).2
  obtain ⟨name, rows, he, -⟩ := get_entry h
  have hg := entry_good he
  obtain ⟨hu0, huk⟩ := hg.u_bound
  refine ⟨(C48_identity ⟨?_, ?_, ?_, ?_, ?_, hu0, huk, hg.count⟩
    (fun m hm => loopless_of_isSRG (hs m hm))).2 hs, C48_property_accepts hs⟩
  · exact le_trans (by decide) hg.v3
  · exact le_trans hg.v66 (by decide)
  · exact hg.l0
  · exact hg.lk.le
  · exact hg.kv

/-- Non-vacuity: (5, 2, 0, 1) is within reach and the test rejects the star. -/
example : Feasible 5 2 0 1 ∧ Tests.testIdentity 5 2 0 1 [pentagon] = .ok () ∧
    Tests.testIdentity 5 2 0 1 [[[0, 0, 0, 0, 1], [0, 0, 0, 0, 1], [0, 0, 0, 0, 1],
      [0, 0, 0, 0, 1], [1, 1, 1, 1, 0]]] = .error .assertion := by
  refine ⟨⟨by decide, by decide, by decide, by decide, by decide, by decide, by decide, by decide⟩,
    by decide +kernel, by decide +kernel⟩

/-- `zip` with a comparison that decides equality on the elements present. -/
theorem all_zip_mem {α : Type} {f : α × α → Res Unit} {s t : List α}
    (hf : ∀ a ∈ s, ∀ b ∈ t, (f (a, b) = .ok () ↔ a = b)) :
    (s.zip t).forM f = .ok () ↔ s <+: t ∨ t <+: s := by
  rw [forM_ok]
  induction s generalizing t with
  | nil => simp
  | cons a s ih =>
    cases t with
    | nil => simp
    | cons b t =>
      rw [List.zip_cons_cons, List.forall_mem_cons,
        ih (fun x hx y hy => hf x (List.mem_cons_of_mem _ hx) y (List.mem_cons_of_mem _ hy)),
        hf a (by simp) b (by simp), List.cons_prefix_cons, List.cons_prefix_cons]
      constructor
      · rintro ⟨rfl, h | h⟩
        · exact Or.inl ⟨rfl, h⟩
        · exact Or.inr ⟨rfl, h⟩
      · rintro (⟨rfl, h⟩ | ⟨rfl, h⟩)
        · exact ⟨rfl, Or.inl h⟩
        · exact ⟨rfl, Or.inr h⟩

theorem arrayEq2_square {v : Nat} {a b : Mat} (hv : 0 < v) (ha : Spec.Square v a)
    (hb : Spec.Square v b) : arrayEq2 a b = true ↔ a = b :=
  arrayEq2_iff (fun r hr => by rw [ncols_square hv ha]; exact ha.rect r hr)
    (fun r hr => by rw [ncols_square hv hb]; exact hb.rect r hr)

/-- **C49.**  `test_solve` passes exactly when the sorted results and the stored list agree as far
as both go: one of them begins with the other. -/
theorem C49_solve {v : Nat} {k l u : Int} (hv : 3 ≤ v) (hv' : v ≤ 66) {db : List Mat}
    (hdb : ∀ m ∈ db, Spec.Square v m) : ∃ out sorted, IsOutput v k l u out ∧
      Sorter.sort out = .ok sorted ∧ sorted.Perm out ∧
      (Tests.testSolve solve v k l u db = .ok () ↔ sorted <+: db ∨ db <+: sorted) := by
  obtain ⟨s, ans, h1, h2⟩ := C05_total hv hv' k l u
  have hio : IsOutput v k l u ans := ⟨s, h1, h2⟩
  have hsh := C03_shape hv hv' hio
  have hsq : ∀ m ∈ ans, Spec.Square v m := fun m hm => square_of_part (hsh m hm).1 (hsh m hm).2
  obtain ⟨sorted, g1, g2, -⟩ := C24_sorted (v := v) (by omega) hsq
  refine ⟨ans, sorted, hio, g1, g2, ?_⟩
  unfold Tests.testSolve
  rw [h1, ok_bind, h2, ok_bind, g1, ok_bind]
  refine all_zip_mem fun a ha b hb => ?_
  rw [pyAssert_ok, arrayEq2_square (v := v) (by omega) (hsq a (g2.mem_iff.1 ha)) (hdb b hb)]

/-- **C49.**  A search that finds nothing passes `test_solve` on every list, for all parameters. -/
theorem C49_accepts_nothing {v : Nat} (hv : 3 ≤ v) (hv' : v ≤ 66) (k l u : Int) (db : List Mat) :
    Tests.testSolve (fun _ => .ok []) v k l u db = .ok () := by
  obtain ⟨s, -, h1, -⟩ := C05_total hv hv' k l u
  unfold Tests.testSolve
  rw [h1, ok_bind, ok_bind]
  rfl

/-- **C49.**  With an empty list in the database `test_solve` accepts any search that can be
sorted. -/
theorem C49_accepts_empty {v : Nat} {k l u : Int} (hv : 3 ≤ v) (hv' : v ≤ 66) :
    Tests.testSolve solve v k l u [] = .ok () := by
  obtain ⟨out, sorted, -, -, -, h⟩ := C49_solve (k := k) (l := l) (u := u) (db := []) hv hv' (by simp)
  exact h.2 (Or.inr (List.nil_prefix))

/-- **C49.**  `test_solve` passes for the parameters whose search has been evaluated. -/
theorem C49_printed : ∀ p ∈ printed, ∃ sols,
    Database.getSolutions Database.modules p.1 p.2.1 p.2.2.1 p.2.2.2 = .ok sols ∧
      Tests.testSolve solve p.1 p.2.1 p.2.2.1 p.2.2.2 sols = .ok () := by
  intro p hp
  have hpr := C45_printed p hp
  have hok : ∀ p ∈ printed,
      (Database.getSolutions Database.modules p.1 p.2.1 p.2.2.1 p.2.2.2).toBool = true := by
    decide +kernel
  have hv : ∀ p ∈ printed, 3 ≤ p.1 ∧ p.1 ≤ 66 := by decide
  obtain ⟨hv1, hv2⟩ := hv p hp
  have hok := hok p hp
  cases hs : Database.getSolutions Database.modules p.1 p.2.1 p.2.2.1 p.2.2.2 with
  | error e => rw [hs] at hok; cases hok
  | ok sols =>
    refine ⟨sols, rfl, ?_⟩
    rw [hs] at hpr
    have hnat : ∀ n : Nat, parseInt (natStr n) = .ok (n : Int) := fun n => parseInt_intStr n
    have hparse : [natStr p.1, natStr p.2.1, natStr p.2.2.1, natStr p.2.2.2].mapM parseInt =
        .ok [(p.1 : Int), (p.2.1 : Int), (p.2.2.1 : Int), (p.2.2.2 : Int)] := by
      simp only [List.mapM_cons, List.mapM_nil, hnat]
      rfl
    have hsq : ∀ m ∈ sols, Spec.Square p.1 m := fun m hm =>
      (loopless_of_isSRG ((C41_stored_srg hs).2 m hm)).square
    rw [main_eq hparse, bind_eq_ok] at hpr
    obtain ⟨-, -, hpr⟩ := hpr
    obtain ⟨out, sorted, ⟨s, h1, h2⟩, h3, -, h4⟩ := C49_solve (k := p.2.1) (l := p.2.2.1)
      (u := p.2.2.2) hv1 hv2 hsq
    rw [h1, ok_bind, h2, ok_bind, h3] at hpr
    rw [Except.ok.inj hpr] at h4
    exact h4.2 (Or.inl (List.prefix_refl _))

theorem mapM_mem_ok {α β : Type} {f : α → Res β} {l : List α} {r : List β}
    (h : l.mapM f = .ok r) {y : β} (hy : y ∈ r) : ∃ x ∈ l, f x = .ok y := by
  induction l generalizing r with
  | nil =>
    rw [List.mapM_nil] at h
    rw [← Except.ok.inj h] at hy; cases hy
  | cons a l ih =>
    rw [List.mapM_cons, bind_eq_ok] at h
    obtain ⟨b, h1, h⟩ := h
    rw [bind_eq_ok] at h
    obtain ⟨bs, h2, h⟩ := h
    rw [← Except.ok.inj h, List.mem_cons] at hy
    rcases hy with rfl | hy
    · exact ⟨a, by simp, h1⟩
    · obtain ⟨x, hx, e⟩ := ih h2 hy
      exact ⟨x, by simp [hx], e⟩

/-- The rows under the seed come from `solve_question`. -/
theorem third_row {v : Nat} {k l u : Int} (hv : 3 ≤ v) (hv' : v ≤ 66) {out : List Mat}
    (ho : IsOutput v k l u out) : ∀ m ∈ out, ∃ q rows,
      fromMatrix [seed0 v k, seed1 v k l] = .ok q ∧ solveQuestion q = .ok rows ∧
      (m.getD 2 []).drop 3 ∈ rows := by
  have hind := ho.induction hv hv' (I := fun m => m = [seed0 v k, seed1 v k l] ∨
    (3 ≤ m.length ∧ m.take 3 ∈ adv [seed0 v k, seed1 v k l])) (Or.inl rfl) (by
      intro m hp h2 hlt hI m' hm'
      right
      obtain ⟨x, rfl, -⟩ := (adv_ext hp h2 hlt hv' hm').ex
      rcases hI with rfl | ⟨h3, ht⟩
      · exact ⟨by simp, hm'⟩
      · refine ⟨by simp; omega, ?_⟩
        rw [List.take_append_of_le_length h3]
        exact ht)
  intro m hm
  obtain ⟨hp, hl, hI⟩ := hind m hm
  rcases hI with rfl | ⟨h3, ht⟩
  · simp at hl; omega
  · have hadv : ∃ lst, advance [seed0 v k, seed1 v k l] = .ok lst ∧ m.take 3 ∈ lst := by
      unfold adv at ht
      cases e : advance [seed0 v k, seed1 v k l] with
      | error _ => rw [e] at ht; simp at ht
      | ok lst => rw [e] at ht; exact ⟨lst, rfl, ht⟩
    obtain ⟨lst, e, hmem⟩ := hadv
    unfold advance at e
    rw [bind_eq_ok] at e
    obtain ⟨-, -, e⟩ := e
    cases hq : fromMatrix [seed0 v k, seed1 v k l] with
    | error err =>
      rw [hq] at e
      cases err <;> simp at e
      subst e
      simp at hmem
    | ok q =>
      rw [hq] at e
      simp only [bind_eq_ok] at e
      obtain ⟨rows, h1, h2⟩ := e
      obtain ⟨x, hx, hx'⟩ := mapM_mem_ok h2 hmem
      refine ⟨q, rows, rfl, h1, ?_⟩
      have h4 : (m.getD 2 []).drop 3 = x := by
        have e3 : m.getD 2 [] = (m.take 3).getD 2 [] := by
          simp [List.getD_eq_getElem?_getD]
        rw [e3]
        unfold appendRow at hx'
        simp only at hx'
        split at hx'
        · cases hx'
        · rw [bind_eq_ok] at hx'
          obtain ⟨-, -, hx'⟩ := hx'
          rw [← Except.ok.inj hx']
          simp [col]
      rw [h4]
      exact hx

/-- **C49.**  `test_solve_question` passes when the list contains a result of the search. -/
theorem C49_question {v : Nat} {k l u : Int} (hv : 3 ≤ v) (hv' : v ≤ 66) {out db : List Mat}
    (ho : IsOutput v k l u out) (h : ∃ m ∈ db, m ∈ out) :
    Tests.testQuestion v k l u db = .ok () := by
  obtain ⟨m, hdb, hout⟩ := h
  obtain ⟨q, rows, h1, h2, h3⟩ := third_row hv hv' ho m hout
  unfold Tests.testQuestion
  rw [seed_eq (by omega), ok_bind, h1, ok_bind, h2, ok_bind, pyAssert_ok, List.any_eq_true]
  refine ⟨_, h3, ?_⟩
  rw [List.any_eq_true]
  exact ⟨_, List.mem_map.2 ⟨m, hdb, rfl⟩, arrayEq1_iff.2 rfl⟩

/-- **C49.**  It passes on every stored list that is not empty. -/
theorem C49_question_stored {v k l u : Nat} {sols : List Mat}
    (h : Database.getSolutions Database.modules v k l u = .ok sols) (hne : sols ≠ []) :
    Tests.testQuestion v k l u sols = .ok () := by
  obtain ⟨m, hm⟩ := List.exists_mem_of_ne_nil sols hne
  obtain ⟨name, rows, he, -⟩ := get_entry h
  have hg := entry_good he
  have hs := (C41_stored_srg h).2 m hm
  obtain ⟨s, out, h1, h2⟩ := C05_total hg.v3 hg.v66 k l u
  have ho : IsOutput v k l u out := ⟨s, h1, h2⟩
  exact C49_question hg.v3 hg.v66 ho
    ⟨m, hm, (C44_exact hg.v3 hg.v66 (Or.inl (lt_of_le_of_lt hg.l0 hg.lk)) ho hs).2
      (stored_justified h m hm)⟩

/-- **C49.**  On an empty list it never passes. -/
theorem C49_question_empty (v k l u : Int) : Tests.testQuestion v k l u [] ≠ .ok () := by
  unfold Tests.testQuestion
  simp only [List.map_nil, List.any_nil, ne_eq, bind_eq_ok, pyAssert_ok, not_exists, not_and]
  intro _ _ _ _ rows _ h
  rw [List.any_eq_true] at h
  obtain ⟨_, _, h⟩ := h
  cases h

/-- The argument of `test_9_4_1_2` (/repo/tests/test_sort.py:10-20). -/
def sortA9 : Mat :=
  [[0, 1, 0, 0, 1, 1, 0, 0, 1],
   [1, 0, 1, 0, 0, 0, 1, 0, 1],
   [0, 1, 0, 1, 1, 0, 1, 0, 0],
   [0, 0, 1, 0, 1, 0, 0, 1, 1],
   [1, 0, 1, 1, 0, 1, 0, 0, 0],
   [1, 0, 0, 0, 1, 0, 1, 1, 0],
   [0, 1, 1, 0, 0, 1, 0, 1, 0],
   [0, 0, 0, 1, 0, 1, 1, 0, 1],
   [1, 1, 0, 1, 0, 0, 0, 1, 0]]

/-- The expected value of `test_9_4_1_2` (/repo/tests/test_sort.py:22-32). -/
def sortB9 : Mat :=
  [[0, 1, 1, 1, 1, 0, 0, 0, 0],
   [1, 0, 1, 0, 0, 1, 1, 0, 0],
   [1, 1, 0, 0, 0, 0, 0, 1, 1],
   [1, 0, 0, 0, 1, 1, 0, 1, 0],
   [1, 0, 0, 1, 0, 0, 1, 0, 1],
   [0, 1, 0, 1, 0, 0, 1, 1, 0],
   [0, 1, 0, 0, 1, 1, 0, 0, 1],
   [0, 0, 1, 1, 0, 1, 0, 0, 1],
   [0, 0, 1, 0, 1, 0, 1, 1, 0]]

/-- The argument of `test_13_6_2_3` (/repo/tests/test_sort.py:41-54). -/
def sortA13 : Mat :=
  [[0, 1, 0, 1, 1, 0, 0, 0, 0, 1, 1, 0, 1],
   [1, 0, 1, 0, 1, 1, 0, 0, 0, 0, 1, 1, 0],
   [0, 1, 0, 1, 0, 1, 1, 0, 0, 0, 0, 1, 1],
   [1, 0, 1, 0, 1, 0, 1, 1, 0, 0, 0, 0, 1],
   [1, 1, 0, 1, 0, 1, 0, 1, 1, 0, 0, 0, 0],
   [0, 1, 1, 0, 1, 0, 1, 0, 1, 1, 0, 0, 0],
   [0, 0, 1, 1, 0, 1, 0, 1, 0, 1, 1, 0, 0],
   [0, 0, 0, 1, 1, 0, 1, 0, 1, 0, 1, 1, 0],
   [0, 0, 0, 0, 1, 1, 0, 1, 0, 1, 0, 1, 1],
   [1, 0, 0, 0, 0, 1, 1, 0, 1, 0, 1, 0, 1],
   [1, 1, 0, 0, 0, 0, 1, 1, 0, 1, 0, 1, 0],
   [0, 1, 1, 0, 0, 0, 0, 1, 1, 0, 1, 0, 1],
   [1, 0, 1, 1, 0, 0, 0, 0, 1, 1, 0, 1, 0]]

/-- The expected value of `test_13_6_2_3` (/repo/tests/test_sort.py:56-69). -/
def sortB13 : Mat :=
  [[0, 1, 1, 1, 1, 1, 1, 0, 0, 0, 0, 0, 0],
   [1, 0, 1, 1, 0, 0, 0, 1, 1, 1, 0, 0, 0],
   [1, 1, 0, 0, 1, 0, 0, 1, 0, 0, 1, 1, 0],
   [1, 1, 0, 0, 0, 1, 0, 0, 1, 0, 1, 0, 1],
   [1, 0, 1, 0, 0, 0, 1, 0, 0, 1, 1, 0, 1],
   [1, 0, 0, 1, 0, 0, 1, 1, 0, 0, 0, 1, 1],
   [1, 0, 0, 0, 1, 1, 0, 0, 1, 1, 0, 1, 0],
   [0, 1, 1, 0, 0, 1, 0, 0, 0, 1, 0, 1, 1],
   [0, 1, 0, 1, 0, 0, 1, 0, 0, 1, 1, 1, 0],
   [0, 1, 0, 0, 1, 0, 1, 1, 1, 0, 0, 0, 1],
   [0, 0, 1, 1, 1, 0, 0, 0, 1, 0, 0, 1, 1],
   [0, 0, 1, 0, 0, 1, 1, 1, 1, 0, 1, 0, 0],
   [0, 0, 0, 1, 1, 1, 0, 1, 0, 1, 1, 0, 0]]

/-- **C49.**  Both tests of `maximize` (/repo/tests/test_sort.py) pass when `argsort` is stable. -/
theorem C49_sort : Sorter.maximize stableArgsort sortA9 = .ok sortB9 ∧
    Sorter.maximize stableArgsort sortA13 = .ok sortB13 := by
  constructor <;> decide +kernel

/-- **C49.**  The second one depends on the tie-breaking of `argsort`, which the code leaves to
numpy's default. -/
theorem C49_sort_ties : IsArgsort revArgsort ∧
    Sorter.maximize revArgsort sortA13 ≠ .ok sortB13 := by
  refine ⟨isArgsort_rev, ?_⟩
  decide +kernel

/-- Non-vacuity: the search for (5, 2, 0, 1) against a right and a wrong list. -/
example : Tests.testSolve solve 5 2 0 1 [pentagon] = .ok () ∧
    Tests.testSolve solve 5 2 0 1 [pentagon'] = .error .assertion ∧
    Tests.testQuestion 5 2 0 1 [pentagon] = .ok () := by
  refine ⟨by decide +kernel, by decide +kernel, by decide +kernel⟩

end TDS
