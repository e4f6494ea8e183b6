import Verif.Model.Draw
import Verif.Proof.Graph
import Verif.Props.Classify
import Verif.Props.Idem

/-! C53, C54: the pictures made by `draw`, the script `exp.py`, and `compose`. -/

namespace TDS

open Draw Sorter

/-! ### File names -/

/-- **C53, names.**  The file names of two pictures agree only if parameters and number agree, so no
picture overwrites another one. -/
theorem C53_names {v k l u v' k' l' u' : Int} {i i' : Nat}
    (h : pngName v k l u i = pngName v' k' l' u' i') :
    (v, k, l, u, i) = (v', k', l', u', i') := by
  have hp : ∀ n : Int, ∀ c ∈ intStr n, c ≠ '_' := fun n c hc => (intStr_plain n c hc).2.1
  unfold pngName at h
  have h0 : "srg_".toList = "srg".toList ++ ['_'] := by decide
  have hs : ∀ v k l u i : Int, Database.split ("srg_".toList ++ intStr v ++ '_' :: intStr k ++
      '_' :: intStr l ++ '_' :: intStr u ++ '_' :: intStr i) =
      ["srg".toList, intStr v, intStr k, intStr l, intStr u, intStr i] := by
    intro v k l u i
    rw [h0]
    simp only [List.append_assoc, List.cons_append, List.nil_append]
    rw [Database.split_append (by decide), Database.split_append (hp v),
      Database.split_append (hp k), Database.split_append (hp l), Database.split_append (hp u),
      Database.split_plain (hp i)]
  have h1 := congrArg Database.split (List.append_cancel_right h)
  rw [hs, hs] at h1
  simp only [List.cons.injEq, true_and, and_true] at h1
  have inj : ∀ a b : Int, intStr a = intStr b → a = b := by
    intro a b hab
    have := parseInt_intStr a
    rw [hab, parseInt_intStr] at this
    exact (Except.ok.inj this).symm
  obtain ⟨a1, a2, a3, a4, a5⟩ := h1
  have a5' := inj _ _ a5
  rw [inj _ _ a1, inj _ _ a2, inj _ _ a3, inj _ _ a4, show i = i' by omega]

/-! ### Edges -/

/-- Before, reading row by row. -/
def Lex (a b : Nat × Nat) : Prop := a.1 < b.1 ∨ (a.1 = b.1 ∧ a.2 < b.2)

theorem mem_nonzero {v : Nat} {m : Mat} (h : Spec.Square v m) {e : Nat × Nat} :
    e ∈ nonzero m ↔ e.1 < v ∧ e.2 < v ∧ Spec.ent m e.1 e.2 ≠ 0 := by
  unfold nonzero
  rw [List.mem_flatMap]
  constructor
  · rintro ⟨r, hr, he⟩
    rw [List.mem_range, h.rows] at hr
    obtain ⟨c, hc, rfl⟩ := List.mem_map.1 he
    rw [mem_npWhere, List.getD_eq_getElem _ _ (by rw [h.rows]; exact hr),
      h.rect _ (List.getElem_mem _)] at hc
    refine ⟨hr, hc.1, ?_⟩
    unfold Spec.ent
    rw [List.getD_eq_getElem m [] (by rw [h.rows]; exact hr)]
    simpa using hc.2
  · rintro ⟨h1, h2, h3⟩
    refine ⟨e.1, by rw [List.mem_range, h.rows]; exact h1, List.mem_map.2 ⟨e.2, ?_, rfl⟩⟩
    unfold Spec.ent at h3
    rw [mem_npWhere]
    refine ⟨?_, by simpa using h3⟩
    rw [List.getD_eq_getElem _ _ (by rw [h.rows]; exact h1), h.rect _ (List.getElem_mem _)]
    exact h2

theorem nonzero_lex (m : Mat) : (nonzero m).Pairwise Lex := by
  unfold nonzero
  rw [List.pairwise_flatMap]
  constructor
  · intro r _
    rw [List.pairwise_map]
    exact (whereFrom_pairwise _ _ _).imp (fun h => Or.inr ⟨rfl, h⟩)
  · refine List.pairwise_lt_range.imp ?_
    intro a b hab x hx y hy
    obtain ⟨c, -, rfl⟩ := List.mem_map.1 hx
    obtain ⟨d, -, rfl⟩ := List.mem_map.1 hy
    exact Or.inl hab

theorem addNodes_range (n : Nat) :
    (List.range n).foldl addNode ⟨[], []⟩ = ⟨List.range n, []⟩ := by
  induction n with
  | zero => rfl
  | succ n ih =>
    rw [List.range_succ, List.foldl_append, ih]
    simp [addNode]

theorem graph_fold {v : Nat} {m : Mat} (h : Spec.Square v m) (hsy : Spec.Symmetric v m)
    (L : List (Nat × Nat)) : ∀ T, nonzero m = L ++ T →
      L.foldl addEdge ⟨List.range v, []⟩ = ⟨List.range v, L.filter (fun e => decide (e.1 ≤ e.2))⟩ := by
  induction L using List.reverseRecOn with
  | nil => intro T _; rfl
  | append_singleton L e ih =>
    intro T hT
    rw [List.append_assoc, List.singleton_append] at hT
    rw [List.foldl_append, ih _ hT, List.filter_append]
    have hm : e ∈ nonzero m := by rw [hT]; simp
    obtain ⟨h1, h2, h3⟩ := (mem_nonzero h).1 hm
    have hlex := nonzero_lex m
    rw [hT, List.pairwise_append, List.pairwise_cons] at hlex
    obtain ⟨-, ⟨hT1, -⟩, hL⟩ := hlex
    have hL' : ∀ x ∈ L, Lex x e := fun x hx => hL x hx e (by simp)
    simp only [List.foldl_cons, List.foldl_nil, addEdge, addNode, List.mem_range, h1, h2, if_true]
    by_cases hle : e.1 ≤ e.2
    · have hno : ¬ (e ∈ L.filter (fun e => decide (e.1 ≤ e.2)) ∨
          (e.2, e.1) ∈ L.filter (fun e => decide (e.1 ≤ e.2))) := by
        rintro (hx | hx)
        · have := hL' _ (List.mem_filter.1 hx).1
          unfold Lex at this
          omega
        · obtain ⟨hx, hd⟩ := List.mem_filter.1 hx
          have := hL' _ hx
          unfold Lex at this
          simp only [decide_eq_true_eq] at hd this
          omega
      rw [if_neg hno]
      simp [hle]
    · have hsw : (e.2, e.1) ∈ nonzero m := by
        rw [mem_nonzero h]
        exact ⟨h2, h1, by rw [← hsy e.1 h1 e.2 h2]; exact h3⟩
      have hin : (e.2, e.1) ∈ L := by
        rw [hT, List.mem_append, List.mem_cons] at hsw
        rcases hsw with hx | hx | hx
        · exact hx
        · have := congrArg Prod.fst hx
          simp only at this
          omega
        · have := hT1 _ hx
          unfold Lex at this
          simp only at this
          omega
      rw [if_pos (Or.inr (List.mem_filter.2 ⟨hin, by simp; omega⟩))]
      simp [hle]

/-- The graph of a symmetric matrix. -/
theorem graph_eq {v : Nat} {m : Mat} (h : Spec.Square v m) (hsy : Spec.Symmetric v m) :
    graph v m = ⟨List.range v, (nonzero m).filter (fun e => decide (e.1 ≤ e.2))⟩ := by
  unfold graph
  rw [Int.toNat_natCast, addNodes_range]
  exact graph_fold h hsy _ [] (by simp)

/-- **C53, the graph.**  The graph drawn for a strongly regular matrix has the nodes 0, …, v-1, in
this order, and the pairs `r < c` with entry 1 as edges, each once. -/
theorem C53_graph {v : Nat} {k l u : Int} {m : Mat} (h : Spec.IsSRG v k l u m) :
    (graph v m).nodes = List.range v ∧ (graph v m).edges.Nodup ∧
    ∀ r c, (r, c) ∈ (graph v m).edges ↔ r < c ∧ c < v ∧ Spec.ent m r c = 1 := by
  have hi := isSRG_iff.1 h
  have hs : Spec.Square v m := hi.1
  have hsy : Spec.Symmetric v m := fun i hi' j hj => hi.2.2.2.1 ⟨i, hi'⟩ ⟨j, hj⟩
  rw [graph_eq hs hsy]
  refine ⟨rfl, ?_, ?_⟩
  · refine List.Nodup.filter _ ((nonzero_lex m).imp ?_)
    rintro a b hab rfl
    unfold Lex at hab
    omega
  · intro r c
    rw [List.mem_filter, mem_nonzero hs]
    simp only [decide_eq_true_eq]
    constructor
    · rintro ⟨⟨h1, h2, h3⟩, h4⟩
      have h5 := hi.2.1 ⟨r, h1⟩ ⟨c, h2⟩
      have h6 := hi.2.2.1 ⟨r, h1⟩
      simp only at h5 h6
      rcases Nat.lt_or_eq_of_le h4 with h7 | rfl
      · exact ⟨h7, h2, by rcases h5 with h5 | h5 <;> [exact absurd h5 h3; exact h5]⟩
      · exact absurd h6 h3
    · rintro ⟨h1, h2, h3⟩
      exact ⟨⟨by omega, h2, by rw [h3]; decide⟩, by omega⟩

/-- **C53.**  For stored parameters `draw` makes one picture for each stored solution, with different
names and the same labels 0, …, v-1, and the graph drawn is strongly regular with these
parameters. -/
theorem C53_draw {v k l u : Nat} {sols : List Mat}
    (h : Database.getSolutions Database.modules v k l u = .ok sols) :
    ∃ figs, draw Database.modules v k l u = .ok figs ∧ figs.length = sols.length ∧
      (figs.map Figure.file).Nodup ∧
      ∀ i < sols.length, ∃ f, figs[i]? = some f ∧ f.file = pngName v k l u i ∧
        f.labels = List.range v ∧ f.graph.nodes = List.range v ∧ f.graph.edges.Nodup ∧
        (∀ r c, (r, c) ∈ f.graph.edges ↔ r < c ∧ c < v ∧ Spec.ent (sols.getD i []) r c = 1) ∧
        (SimpleGraph.fromRel fun a b : Fin v => ((a : Nat), (b : Nat)) ∈ f.graph.edges).IsSRGWith
          v k l u := by
  have hs : ∀ m ∈ sols, Spec.IsSRG v k l u m := (C41_stored_srg h).2
  refine ⟨_, by unfold draw; rw [h]; rfl, by simp, ?_, ?_⟩
  · rw [List.nodup_iff_getElem?_ne_getElem?]
    intro i j hij hj he
    simp only [List.length_map, List.length_mapIdx] at hj
    rw [List.getElem?_map, List.getElem?_map, List.getElem?_mapIdx, List.getElem?_mapIdx,
      List.getElem?_eq_getElem hj, List.getElem?_eq_getElem (by omega)] at he
    have := C53_names (Option.some.inj he)
    simp only [Prod.mk.injEq] at this
    omega
  · intro i hi
    have hm := hs _ (List.getElem_mem hi)
    refine ⟨_, by rw [List.getElem?_mapIdx, List.getElem?_eq_getElem hi]; rfl, rfl, by simp, ?_⟩
    rw [List.getD_eq_getElem _ _ hi]
    obtain ⟨h1, h2, h3⟩ := C53_graph hm
    refine ⟨h1, h2, h3, ?_⟩
    convert graphOf_srg hm using 1
    ext a b
    rw [graphOf_adj hm, SimpleGraph.fromRel_adj, h3, h3, ← (isSRG_iff.1 hm).2.2.2.1 a b]
    constructor
    · rintro ⟨-, h4 | h4⟩ <;> exact h4.2.2
    · intro h4
      have hne : a ≠ b := by
        rintro rfl
        rw [(isSRG_iff.1 hm).2.2.1 a] at h4
        cases h4
      refine ⟨hne, ?_⟩
      rcases lt_or_gt_of_ne hne with h5 | h5
      · exact Or.inl ⟨h5, b.2, h4⟩
      · exact Or.inr ⟨h5, a.2, h4⟩

/-- Without an entry in the database nothing is drawn. -/
theorem C53_missing {v k l u : Int} (h : Database.getSolutions Database.modules v k l u =
    .error .importErr) : draw Database.modules v k l u = .error .importErr := by
  unfold draw
  rw [h]
  rfl

/-- Non-vacuity: the picture of the pentagon. -/
example : draw Database.modules 5 2 0 1 = .ok [⟨"srg_5_2_0_1_0.png".toList, [0, 1, 2, 3, 4],
    ⟨[0, 1, 2, 3, 4], [(0, 1), (0, 2), (1, 3), (2, 4), (3, 4)]⟩⟩] := by
  decide +kernel

/-! ### exp.py -/

/-- **C54.**  With any tie-breaking the two matrices of `exp.py` are numberings of the graph stored
for (10, 3, 0, 1). -/
theorem C54_same_graph {argsort : Vec → List Nat} (ha : IsArgsort argsort) {pp pn : List Mat}
    (hp : Database.getSolutions Database.modules 10 6 3 4 = .ok pp)
    (hn : Database.getSolutions Database.modules 10 3 0 1 = .ok pn) :
    ∃ u0 u1 w, Draw.experiment argsort pp pn = .ok (u0, u1, w) ∧ w ∈ pn ∧
      Spec.Relabels 10 w u0 ∧ Spec.Relabels 10 w u1 := by
  have hs : ∀ m ∈ pp, Spec.IsSRG 10 6 3 4 m :=
    (C41_stored_srg (v := (10 : Nat)) (k := (6 : Nat)) (l := (3 : Nat)) (u := (4 : Nat)) hp).2
  have hl : ∃ s0 s1 w, pp = [s0, s1] ∧ pn = [w] := by
    have e1 : Database.getSolutions Database.modules 10 6 3 4 = .ok _ := rfl
    have e2 : Database.getSolutions Database.modules 10 3 0 1 = .ok _ := rfl
    rw [e1] at hp
    rw [e2] at hn
    rw [← Except.ok.inj hp, ← Except.ok.inj hn]
    exact ⟨_, _, _, rfl, rfl⟩
  obtain ⟨s0, s1, w, rfl, rfl⟩ := hl
  have key : ∀ s ∈ [s0, s1], ∃ t u, Utils.complement s = .ok t ∧ maximize argsort t = .ok u ∧
      Spec.Relabels 10 w u := by
    intro s hm
    obtain ⟨t, k, l, u, h1, h2, h3⟩ := C29_complement (by omega) (hs s hm)
    obtain ⟨rfl, rfl, rfl⟩ : 3 = k ∧ 0 = l ∧ 1 = u := by
      have : Utils.complementVklu ((10 : Nat) : Int) 6 3 4 = (10, 3, 0, 1) := by decide
      rw [this] at h2
      simp only [Prod.mk.injEq] at h2
      exact h2.2
    have hsq : Spec.Square 10 t := ⟨h3.adj.square, h3.adj.part.rect⟩
    rcases C27_outcome ha hsq h3.adj.part.bin with ⟨g1, -⟩ | ⟨-, g1, -⟩ | ⟨-, -, M, g1⟩
    · exact absurd (fun i hi j hj => (isSRG_iff.1 h3).2.2.2.1 ⟨i, hi⟩ ⟨j, hj⟩) g1
    · have h4 := (isSRG_iff.1 h3).2.2.2.2.1 0
      rw [Fin.sum_univ_succ] at h4
      have h5 : ∀ i : Fin 9, Spec.ent t ((0 : Fin 10) : Nat) (i.succ : Fin 10) = 1 := fun i =>
        g1 _ (by simp) (by have := i.2; simp; omega)
      have h6 := (isSRG_iff.1 h3).2.2.1 0
      simp only [h5] at h4
      rw [h6] at h4
      simp at h4
    · refine ⟨t, M, h1, g1, ?_⟩
      have h4 := ((C25_relabels ha hsq g1).2.2.2.2.2 3 0 1).1 h3
      obtain ⟨m, hm, hr⟩ := Complete.relabels (C45_complete (v := 10) (k := 3) (l := 0) (u := 1)
        (by decide) hn) (C41_stored_srg (v := 10) (k := 3) (l := 0) (u := 1) hn).2 h4
      rw [List.mem_singleton] at hm
      rwa [← hm]
  obtain ⟨t0, u0, a1, a2, a3⟩ := key s0 (by simp)
  obtain ⟨t1, u1, b1, b2, b3⟩ := key s1 (by simp)
  refine ⟨u0, u1, w, ?_, by simp, a3, b3⟩
  unfold Draw.experiment
  simp only [a1, b1, a2, b2, ok_bind]
  rfl

/-- **C54.**  With a stable `argsort` both comparisons of `exp.py` are false. -/
theorem C54_not_equal {pp pn : List Mat}
    (hp : Database.getSolutions Database.modules 10 6 3 4 = .ok pp)
    (hn : Database.getSolutions Database.modules 10 3 0 1 = .ok pn) :
    ∃ u0 u1 w, Draw.experiment stableArgsort pp pn = .ok (u0, u1, w) ∧ u0 ≠ w ∧ u1 ≠ w ∧ u0 = u1 := by
  have e1 : Database.getSolutions Database.modules 10 6 3 4 = .ok _ := rfl
  have e2 : Database.getSolutions Database.modules 10 3 0 1 = .ok _ := rfl
  rw [e1] at hp
  rw [e2] at hn
  rw [← Except.ok.inj hp, ← Except.ok.inj hn]
  exact ⟨petersenB, petersenB, Database.bitMat 10 (Database.p_10_3_0_1.getD 0 []), by decide +kernel,
    by decide +kernel, by decide +kernel, rfl⟩

/-- Non-vacuity: both lists are stored, and `stableArgsort` is a valid `argsort`. -/
example : IsArgsort stableArgsort ∧
    (∃ pp, Database.getSolutions Database.modules 10 6 3 4 = .ok pp ∧ pp.length = 2) ∧
    ∃ pn, Database.getSolutions Database.modules 10 3 0 1 = .ok pn ∧ pn.length = 1 :=
  ⟨isArgsort_stable, ⟨_, rfl, rfl⟩, _, rfl, rfl⟩

/-! ### compose -/

/-- **C54.**  `compose(f1, ..., fn)` applies the functions from the last to the first; without
functions it raises. -/
theorem C54_compose {α : Type} (fs : List (α → α)) :
    (fs = [] → compose fs = .error .typeErr) ∧
    (fs ≠ [] → ∃ f, compose fs = .ok f ∧ ∀ x, f x = fs.foldr (fun g y => g y) x) := by
  refine ⟨by rintro rfl; rfl, ?_⟩
  intro hne
  cases fs with
  | nil => exact absurd rfl hne
  | cons f t =>
    refine ⟨_, rfl, ?_⟩
    clear hne
    induction t generalizing f with
    | nil => intro x; rfl
    | cons g t ih =>
      intro x
      rw [List.foldl_cons, ih (fun y => f (g y)) x]
      rfl

example : (compose [fun x : Nat => x + 1, fun x => 2 * x]).map (fun f => f 5) = .ok 11 := rfl

end TDS
