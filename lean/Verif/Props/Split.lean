import Verif.Props.Exact

/-! C67: the search can be started from any partial matrix, and cut into independent parts. -/

namespace Spec

/-- `n` rounds of a step that may fail, applied to every matrix of a list; what comes out is put
together in order. -/
def rounds (step : Matrix → Except TDS.Err (List Matrix)) : Nat → List Matrix →
    Except TDS.Err (List Matrix)
  | 0, lst => .ok lst
  | n + 1, lst =>
    match lst.mapM step with
    | .ok next => rounds step n next.flatten
    | .error e => .error e

/-- The rows of `m` from row `R` on are justified to the left. -/
def JustifiedFrom (R v : Nat) (m : Matrix) : Prop :=
  ∀ i, R ≤ i → i < v → LeftJustified v (m.take i) (m.getD i [])

end Spec

namespace TDS

theorem nextLevel_append (a b : List Mat) : nextLevel (a ++ b) = nextLevel a ++ nextLevel b := by
  simp [nextLevel]

theorem iter_append (n : Nat) : ∀ a b : List Mat,
    nextLevel^[n] (a ++ b) = nextLevel^[n] a ++ nextLevel^[n] b := by
  induction n with
  | zero => intro a b; rfl
  | succ n ih => intro a b; simp only [Function.iterate_succ_apply, nextLevel_append, ih]

theorem iter_flatten (n : Nat) (lst : List Mat) :
    nextLevel^[n] lst = (lst.map (fun m => nextLevel^[n] [m])).flatten := by
  induction lst with
  | nil => rw [nextLevel_iter_nil]; rfl
  | cons m t ih =>
    rw [show m :: t = [m] ++ t from rfl, iter_append, ih]
    simp

theorem rounds_eq {v : Nat} (hv : v ≤ 66) (n : Nat) : ∀ {R : Nat} {lst : List Mat},
    Level v R lst → 2 ≤ R → R + n ≤ v → Spec.rounds advance n lst = .ok (nextLevel^[n] lst) := by
  induction n with
  | zero => intro R lst _ _ _; rfl
  | succ n ih =>
    intro R lst h h2 hR
    have hm : lst.mapM advance = .ok (lst.map adv) := mapM_ok (by
      intro m hm
      obtain ⟨hp, hl⟩ := h m hm
      exact advance_eq hp (by omega) (by omega) hv)
    rw [Spec.rounds, hm, Function.iterate_succ_apply]
    exact ih (h.next h2 (by omega) hv) (by omega) (by omega)

section
variable {v : Nat} {s : Mat} (hs : Spec.Part v s) (h2 : 2 ≤ s.length) (hv : v ≤ 66)
include hs h2 hv

theorem level_start (n : Nat) (hn : s.length + n ≤ v) :
    Level v (s.length + n) (nextLevel^[n] [s]) :=
  (level_induction hv (I := fun _ => True) (fun _ _ _ _ _ _ _ => trivial) n s.length [s]
    (fun m hm => by rw [List.mem_singleton.1 hm]; exact ⟨hs, rfl⟩) h2 hn
    (fun _ _ => trivial)).1

/-- **C67, splitting.**  Let the search from `s` be interrupted after `n` rounds of `advance`.
Searching from each matrix reached so far, one by one, gives together the result of the whole
search, in the same order. -/
theorem C67_split {n : Nat} (hn : s.length + n < v) : ∃ parts outs out,
    Spec.rounds advance n [s] = .ok parts ∧ parts.mapM solve = .ok outs ∧
    solve s = .ok out ∧ out = outs.flatten := by
  have hl : Level v s.length [s] := fun m hm => by rw [List.mem_singleton.1 hm]; exact ⟨hs, rfl⟩
  have hlev := level_start hs h2 hv n hn.le
  refine ⟨_, (nextLevel^[n] [s]).map (fun m => nextLevel^[v - (s.length + n)] [m]), _,
    rounds_eq hv n hl h2 hn.le, mapM_ok ?_, solve_eq hs h2 (by omega) hv, ?_⟩
  · intro m hm
    obtain ⟨hp, e⟩ := hlev m hm
    rw [solve_eq hp (by omega) (by omega) hv, e]
  · rw [← iter_flatten, ← Function.iterate_add_apply]
    congr 2
    omega

/-- **C67, parts.**  Every result is a square 0/1 matrix that begins with the given rows.  So two
searches from different matrices with equally many rows have no result in common. -/
theorem C67_prefix (hlt : s.length < v) {out : List Mat} (ho : solve s = .ok out) {m : Mat}
    (hm : m ∈ out) : Spec.Part v m ∧ m.length = v ∧ m.take s.length = s := by
  rw [solve_eq hs h2 hlt hv] at ho
  cases ho
  have := level_induction hv (I := fun m => m.take s.length = s)
    (fun m hp h2' hlt' hI m' hm' => by
      obtain ⟨x, rfl, -⟩ := (adv_ext hp h2' hlt' hv hm').ex
      have hle : s.length ≤ m.length := by
        have := congrArg List.length hI
        rw [List.length_take] at this
        omega
      rw [List.take_append_of_le_length hle]
      exact hI)
    (v - s.length) s.length [s]
    (fun m hm => by rw [List.mem_singleton.1 hm]; exact ⟨hs, rfl⟩) h2 (by omega)
    (fun m hm => by rw [List.mem_singleton.1 hm]; exact List.take_length)
  obtain ⟨hp, hl⟩ := this.1 m hm
  exact ⟨hp, by omega, this.2 m hm⟩

omit hs h2 hv in
theorem filter_flatten {R : Nat} {f : Mat → List Mat} {p : Mat} {parts : List Mat}
    (hf : ∀ m ∈ parts, ∀ x ∈ f m, x.take R = m) (hnd : parts.Nodup) (hp : p ∈ parts) :
    (parts.map f).flatten.filter (fun x => decide (x.take R = p)) = f p := by
  have none : ∀ q : List Mat, (∀ m ∈ q, m ∈ parts) → p ∉ q →
      (q.map f).flatten.filter (fun x => decide (x.take R = p)) = [] := by
    intro q hq hpq
    rw [List.filter_eq_nil_iff]
    intro x hx
    obtain ⟨l, hl, hx⟩ := List.mem_flatten.1 hx
    obtain ⟨m, hm, rfl⟩ := List.mem_map.1 hl
    rw [hf m (hq m hm) x hx, decide_eq_true_eq]
    rintro rfl
    exact hpq hm
  have same : (f p).filter (fun x => decide (x.take R = p)) = f p := by
    rw [List.filter_eq_self]
    intro x hx
    rw [hf p hp x hx]
    simp
  obtain ⟨a, b, rfl⟩ := List.append_of_mem hp
  have hnd' := hnd
  rw [List.nodup_middle, List.nodup_cons] at hnd'
  rw [List.map_append, List.flatten_append, List.filter_append, List.map_cons, List.flatten_cons,
    List.filter_append, same, none a (fun m hm => by simp [hm])
      (fun h => hnd'.1 (List.mem_append_left _ h)), none b (fun m hm => by simp [hm])
      (fun h => hnd'.1 (List.mem_append_right _ h))]
  simp

/-- **C67, resuming.**  Take a matrix reached after `n` rounds.  Searching from there returns
exactly those results of the whole search that begin with this matrix, in the same order. -/
theorem C67_resume {n : Nat} (hn : s.length + n < v) {parts out : List Mat}
    (hr : Spec.rounds advance n [s] = .ok parts) (ho : solve s = .ok out) {p : Mat}
    (hp : p ∈ parts) :
    solve p = .ok (out.filter (fun m => decide (m.take (s.length + n) = p))) := by
  have hl : Level v s.length [s] := fun m hm => by rw [List.mem_singleton.1 hm]; exact ⟨hs, rfl⟩
  have hlev := level_start hs h2 hv n hn.le
  have hnd := level_nodup hv n s.length [s] hl h2 hn.le (by simp)
  rw [rounds_eq hv n hl h2 hn.le] at hr
  cases hr
  rw [solve_eq hs h2 (by omega) hv] at ho
  cases ho
  have e : nextLevel^[v - s.length] [s] = ((nextLevel^[n] [s]).map
      (fun m => nextLevel^[v - (s.length + n)] [m])).flatten := by
    rw [← iter_flatten, ← Function.iterate_add_apply]
    congr 2
    omega
  have hsol : ∀ m ∈ nextLevel^[n] [s], solve m = .ok (nextLevel^[v - (s.length + n)] [m]) := by
    intro m hm
    obtain ⟨hpm, em⟩ := hlev m hm
    rw [solve_eq hpm (by omega) (by omega) hv, em]
  rw [e, filter_flatten _ hnd hp, hsol p hp]
  intro m hm x hx
  obtain ⟨hpm, em⟩ := hlev m hm
  have := (C67_prefix hpm (by omega) hv (by omega) (hsol m hm) hx).2.2
  rwa [em] at this

/-- Every result is found again from any of its own beginnings. -/
theorem C67_again {out : List Mat} (ho : solve s = .ok out) {m : Mat}
    (hm : m ∈ out) {R : Nat} (h1 : s.length ≤ R) (hR : R < v) :
    ∃ out', solve (m.take R) = .ok out' ∧ m ∈ out' := by
  obtain ⟨parts, outs, out1, hr, hms, ho1, e⟩ := C67_split hs h2 hv (n := R - s.length) (by omega)
  rw [ho] at ho1
  cases ho1
  have hl : Level v s.length [s] := fun m hm => by rw [List.mem_singleton.1 hm]; exact ⟨hs, rfl⟩
  have hlev := level_start hs h2 hv (R - s.length) (by omega)
  have hr' := hr
  rw [rounds_eq hv _ hl h2 (by omega)] at hr'
  cases hr'
  have hsol : ∀ p ∈ nextLevel^[R - s.length] [s], solve p = .ok (nextLevel^[v - R] [p]) := by
    intro p hp
    obtain ⟨hpm, em⟩ := hlev p hp
    rw [solve_eq hpm (by omega) (by omega) hv, em]
    congr 3
    omega
  rw [mapM_ok hsol] at hms
  cases hms
  rw [e] at hm
  obtain ⟨l, hl', hx⟩ := List.mem_flatten.1 hm
  obtain ⟨p, hp, rfl⟩ := List.mem_map.1 hl'
  obtain ⟨hpm, em⟩ := hlev p hp
  have := (C67_prefix hpm (by omega) hv (by omega) (hsol p hp) hx).2.2
  rw [em, show s.length + (R - s.length) = R by omega] at this
  rw [this]
  exact ⟨_, hsol p hp, hx⟩

theorem C67_disjoint {s' : Mat} (hs' : Spec.Part v s') (he : s'.length = s.length)
    (hlt : s.length < v) (hne : s' ≠ s) {out out' : List Mat} (ho : solve s = .ok out)
    (ho' : solve s' = .ok out') {m : Mat} (hm : m ∈ out) : m ∉ out' := by
  intro hm'
  have h1 := (C67_prefix hs h2 hv hlt ho hm).2.2
  have h3 := (C67_prefix hs' (by omega) hv (by omega) ho' hm').2.2
  rw [he, h1] at h3
  exact hne h3.symm

omit hs h2 in
theorem levels_from {k l u : Int} {M : Nat → Nat → Int}
    (h : Arr v k l u M) {R₀ : Nat}
    (hlj : ∀ R, R₀ ≤ R → R < v → Spec.LeftJustified v (matOf v M R) (rowAt v M R)) :
    ∀ (n R : Nat) (lst : List Mat), R₀ ≤ R → 2 ≤ R → R + n ≤ v → Spec.Adjacent v (matOf v M R) →
    Vals v k l u (matOf v M R) → matOf v M R ∈ lst → matOf v M (R + n) ∈ nextLevel^[n] lst := by
  intro n
  induction n with
  | zero => intro R lst _ _ _ _ _ hm; exact hm
  | succ n ih =>
    intro R lst h0 h2 hR hadj hp hm
    rw [Function.iterate_succ_apply]
    have := ih (R + 1) (nextLevel lst) (by omega) (by omega) (by omega)
      (by rw [matOf_succ]; exact adjacent_snoc hadj (hlj R h0 (by omega)))
      (mat_append_vals h2 hp)
      (mem_nextLevel.2 ⟨_, hm, adv_self hv h2 (by omega) h hadj hp (hlj R h0 (by omega))⟩)
    rwa [show R + 1 + n = R + (n + 1) by omega] at this

/-- **C67, any start.**  Let equal unfinished columns of `s` be adjacent.  A strongly regular matrix
whose first two vertices are joined is a result of the search from `s` exactly if it begins with `s`
and its further rows are justified to the left. -/
theorem C67_exact (hlt : s.length < v) (ha : Spec.Adjacent v s) {k l u : Int} {m : Mat}
    (h : Spec.IsSRG v k l u m) (h01 : Spec.ent m 0 1 = 1) {out : List Mat}
    (ho : solve s = .ok out) :
    m ∈ out ↔ m.take s.length = s ∧ Spec.JustifiedFrom s.length v m := by
  have hsq : Spec.Square v m := ⟨h.adj.square, h.adj.part.rect⟩
  constructor
  · intro hm
    refine ⟨(C67_prefix hs h2 hv hlt ho hm).2.2, ?_⟩
    rw [solve_eq hs h2 hlt hv] at ho
    cases ho
    have := level_induction hv (I := fun m => Spec.Adjacent v m ∧ ∀ R, s.length ≤ R →
        R < m.length → Spec.LeftJustified v (m.take R) (m.getD R []))
      (fun m hp h2' hlt' hI m' hm' => by
        refine ⟨adjacent_adv hp h2' hlt' hv hI.1 hm', ?_⟩
        obtain ⟨x, rfl, -, -, hx⟩ := (adv_ext hp h2' hlt' hv hm').ex
        intro R hR0 hR
        rw [List.length_append, List.length_singleton] at hR
        by_cases hR' : R < m.length
        · have := hI.2 R hR0 hR'
          rw [List.take_append_of_le_length hR'.le, List.getD_eq_getElem?_getD,
            List.getElem?_append_left hR', ← List.getD_eq_getElem?_getD]
          exact this
        · obtain rfl : R = m.length := by omega
          rw [List.take_left, List.getD_eq_getElem?_getD, List.getElem?_append_right (le_refl _),
            Nat.sub_self]
          exact (hx hI.1).1)
      (v - s.length) s.length [s]
      (fun m hm => by rw [List.mem_singleton.1 hm]; exact ⟨hs, rfl⟩) h2 (by omega)
      (fun m hm => by
        rw [List.mem_singleton.1 hm]
        exact ⟨ha, fun R h1 h3 => absurd h1 (by omega)⟩)
    intro R h1 h3
    exact (this.2 m hm).2 R h1 (by rw [h.adj.square]; exact h3)
  · rintro ⟨hpre, hj⟩
    rw [solve_eq hs h2 hlt hv] at ho
    cases ho
    have harr := arr_of_isSRG h
    obtain ⟨u', h', hdeg, hu0, hu1⟩ : ∃ u', Arr v k l u' (Spec.ent m) ∧
        ((v : Int) = k + 1 → u' = 0) ∧ 0 ≤ u' ∧ u' ≤ 127 := by
      by_cases hk : (v : Int) = k + 1
      · exact ⟨0, harr.norm hk, fun _ => rfl, by omega, by omega⟩
      · have := harr.u_bounds (by omega) hk
        exact ⟨u, harr, fun e => absurd e hk, by omega, by omega⟩
    have hlj : ∀ R, s.length ≤ R → R < v →
        Spec.LeftJustified v (matOf v (Spec.ent m) R) (rowAt v (Spec.ent m) R) := by
      intro R h1 hR
      have := hj R h1 hR
      rw [← matOf_ent hsq, matOf_take hR.le, matOf_getD hR] at this
      exact this
    have hpre' : matOf v (Spec.ent m) s.length = s := by
      rw [← matOf_take hlt.le, matOf_ent hsq, hpre]
    have hp2 := (params_matOf h' (by omega) (Or.inl h01) (h'.count (by omega)) hdeg hu0 hu1).vals
      (matOf_part h' (by omega)) (by simp) hv
    have hpR : ∀ n, 2 + n ≤ v → Vals v k l u' (matOf v (Spec.ent m) (2 + n)) := by
      intro n
      induction n with
      | zero => intro _; exact hp2
      | succ n ih => intro hn; exact mat_append_vals (Nat.le_add_right 2 n) (ih (by omega))
    have hps : Vals v k l u' (matOf v (Spec.ent m) s.length) := by
      have := hpR (s.length - 2) (by omega)
      rwa [show 2 + (s.length - 2) = s.length by omega] at this
    have := levels_from hv h' hlj (v - s.length) s.length [s] (le_refl _) h2 (by omega)
      (by rw [hpre']; exact ha) hps (by rw [hpre']; simp)
    rwa [show s.length + (v - s.length) = v by omega, matOf_ent hsq] at this

end

/-- A numbering of the 3 by 3 rook's graph in which equal columns of the first two rows are not
adjacent: columns 3 and 6 agree, columns 4 and 5 lie between them. -/
def rook9 : Mat :=
  [[0, 1, 1, 0, 1, 1, 0, 0, 0], [1, 0, 1, 0, 0, 0, 0, 1, 1], [1, 1, 0, 1, 0, 0, 1, 0, 0],
   [0, 0, 1, 0, 1, 0, 1, 1, 0], [1, 0, 0, 1, 0, 1, 0, 1, 0], [1, 0, 0, 0, 1, 0, 1, 0, 1],
   [0, 0, 1, 1, 0, 1, 0, 0, 1], [0, 1, 0, 1, 1, 0, 0, 0, 1], [0, 1, 0, 0, 0, 1, 1, 1, 0]]

theorem rook9_srg : Spec.IsSRG 9 4 1 2 rook9 := by
  rw [isSRG_iff]
  refine ⟨⟨by decide, by decide⟩, ?_, ?_, ?_, ?_, ?_⟩ <;> decide +kernel

theorem rook9_justified : Spec.JustifiedFrom 2 9 rook9 := by
  have key : ∀ R : Fin 9, ∀ j : Fin 9, ∀ i : Fin 9,
      2 ≤ R.1 ∧ (rook9.take R).length < i ∧ i < j ∧
        (rook9.take R).all (fun r => decide (r.getD i 0 = r.getD j 0)) = true →
      (rook9.getD R []).getD j 0 ≤ (rook9.getD R []).getD i 0 := by decide +kernel
  intro R h2 hR i j hi hij hj he
  exact key ⟨R, hR⟩ ⟨j, hj⟩ ⟨i, by omega⟩ ⟨h2, hi, hij, by simpa [Spec.ColEq] using he⟩

/-- **C67, adjacency is needed.**  Started from two rows in which equal columns are not adjacent, the
search can return nothing although a justified strongly regular matrix begins with them. -/
theorem C67_adjacent_needed : Spec.IsSRG 9 4 1 2 rook9 ∧ Spec.ent rook9 0 1 = 1 ∧
    Spec.JustifiedFrom 2 9 rook9 ∧ Spec.Part 9 (rook9.take 2) ∧ solve (rook9.take 2) = .ok [] :=
  ⟨rook9_srg, by decide, rook9_justified,
    ⟨by decide, by unfold Spec.Bin; decide, by decide⟩, by decide +kernel⟩

/-- The search cannot be started from a finished matrix: `advance` asserts that it is not. -/
example : solve rook9 = .error .assertion := by decide +kernel

/-- Non-vacuity: the search for (16,6,2,2) splits into two parts with one result each. -/
example : (do
      let s ← seed 16 6 2 2
      let parts ← Spec.rounds advance 1 [s]
      let outs ← parts.mapM solve
      let out ← solve s
      .ok (outs.map List.length, decide (out = outs.flatten))) = .ok ([1, 1], true) := by
  decide +kernel

end TDS
