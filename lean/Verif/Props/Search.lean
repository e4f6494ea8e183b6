import Verif.Proof.Start

/-! C03–C05: the whole search. -/

namespace TDS

theorem solve_seed {v : Nat} (hv : 3 ≤ v) (hv' : v ≤ 66) (k l : Int) :
    solve [seed0 v k, seed1 v k l] = .ok (nextLevel^[v - 2] [[seed0 v k, seed1 v k l]]) :=
  solve_eq (seed_part (by omega) k l) (by simp) (by simp; omega) hv'

theorem seed_level {v : Nat} (hv : 3 ≤ v) (k l : Int) :
    Level v 2 [[seed0 v k, seed1 v k l]] := by
  intro m hm
  rw [List.mem_singleton.1 hm]
  exact ⟨seed_part (by omega) k l, rfl⟩

/-- The hypothesis shared by the theorems below: `out` is what the search returns for the seed of
`(v, k, l, u)`. -/
def IsOutput (v : Nat) (k l u : Int) (out : List Mat) : Prop :=
  ∃ s, seed v k l u = .ok s ∧ solve s = .ok out

theorem IsOutput.eq {v : Nat} {k l u : Int} {out : List Mat} (h : IsOutput v k l u out)
    (hv : 3 ≤ v) (hv' : v ≤ 66) : out = nextLevel^[v - 2] [[seed0 v k, seed1 v k l]] := by
  obtain ⟨s, h1, h2⟩ := h
  rw [seed_eq (by omega)] at h1
  cases h1
  rw [solve_seed hv hv'] at h2
  cases h2
  rfl

/-- Induction principle over the search. -/
theorem IsOutput.induction {v : Nat} {k l u : Int} {out : List Mat} (h : IsOutput v k l u out)
    (hv : 3 ≤ v) (hv' : v ≤ 66) {I : Mat → Prop} (h0 : I [seed0 v k, seed1 v k l])
    (hstep : ∀ m, Spec.Part v m → 2 ≤ m.length → m.length < v → I m → ∀ m' ∈ adv m, I m') :
    ∀ m ∈ out, Spec.Part v m ∧ m.length = v ∧ I m := by
  rw [h.eq hv hv']
  obtain ⟨h1, h2⟩ := level_induction hv' (I := I) hstep (v - 2) 2 _ (seed_level hv k l)
    (le_refl 2) (by omega) (by intro m hm; rw [List.mem_singleton.1 hm]; exact h0)
  intro m hm
  have := h1 m hm
  exact ⟨this.1, by omega, h2 m hm⟩

/-- **C05.**  For `3 ≤ v ≤ 66` and arbitrary integers `k, l, u` the search terminates and raises
nothing. -/
theorem C05_total {v : Nat} (hv : 3 ≤ v) (hv' : v ≤ 66) (k l u : Int) :
    ∃ s out, seed v k l u = .ok s ∧ solve s = .ok out :=
  ⟨_, _, seed_eq (by omega) k l u, solve_seed hv hv' k l⟩

/-- The bound `3 ≤ v` is needed: for `v = 2` the search raises `AssertionError`. -/
theorem C05_fails_at_two : (seed 2 1 0 0 >>= solve) = .error .assertion := by decide +kernel

/-- Non-vacuity of C05 with nonsensical parameters. -/
example : (seed 6 (-1) 9 0 >>= solve).isOk = true := by decide +kernel

/-- **C03.**  Every finished matrix is the adjacency matrix of a simple graph on `v` vertices and
starts with the two seed rows. -/
theorem C03_structure {v : Nat} (hv : 3 ≤ v) (hv' : v ≤ 66) {k l u : Int}
    (hkl : (0 ≤ l ∧ l < k) ∨ (k = 0 ∧ l = 0)) {out : List Mat} (h : IsOutput v k l u out) :
    ∀ m ∈ out, Spec.IsAdj v m ∧ seed v k l u = .ok (m.take 2) := by
  intro m hm
  obtain ⟨h1, h2, h3, h4⟩ := h.induction hv hv'
    (I := fun m => Spec.SymPart m ∧ m.take 2 = [seed0 v k, seed1 v k l])
    ⟨seed_sym (by omega) hkl, rfl⟩ (by
      intro m hp h2 hlt ⟨hs, ht⟩ m' hm'
      obtain ⟨x, rfl, -⟩ := (adv_ext hp h2 hlt hv' hm').ex
      refine ⟨symPart_snoc hs x, ?_⟩
      rw [List.take_append_of_le_length h2, ht]) m hm
  exact ⟨⟨h1, h2, h3⟩, by rw [h4, seed_eq (by omega)]⟩

/-- Without a condition on `k, l` the entries are still 0/1 and the shape `v × v`. -/
theorem C03_shape {v : Nat} (hv : 3 ≤ v) (hv' : v ≤ 66) {k l u : Int} {out : List Mat}
    (h : IsOutput v k l u out) : ∀ m ∈ out, Spec.Part v m ∧ m.length = v := by
  intro m hm
  obtain ⟨h1, h2, -⟩ := h.induction hv hv' (I := fun _ => True) trivial
    (fun _ _ _ _ _ _ _ => trivial) m hm
  exact ⟨h1, h2⟩

/-- Non-vacuity of C03 (and of `IsOutput`). -/
example : ∃ out, IsOutput 5 2 0 1 out ∧ out.length = 1 :=
  ⟨_, ⟨_, rfl, show _ = Except.ok [[[0, 1, 1, 0, 0], [1, 0, 0, 1, 0], [1, 0, 0, 0, 1],
    [0, 1, 0, 0, 1], [0, 0, 1, 1, 0]]] by decide +kernel⟩, rfl⟩

/-- **C04.**  The search never returns a matrix twice. -/
theorem C04_nodup {v : Nat} (hv : 3 ≤ v) (hv' : v ≤ 66) {k l u : Int} {out : List Mat}
    (h : IsOutput v k l u out) : out.Nodup := by
  rw [h.eq hv hv']
  exact level_nodup hv' (v - 2) 2 _ (seed_level hv k l) (le_refl 2) (by omega)
    (List.nodup_singleton _)

/-- **C04** for one step. -/
theorem C04_advance_nodup {v : Nat} {m : Mat} (h : Spec.Part v m) (h2 : 2 ≤ m.length)
    (hlt : m.length < v) (hv : v ≤ 66) {out : List Mat} (hout : advance m = .ok out) :
    out.Nodup := by
  rw [advance_eq h h2 hlt hv, Except.ok.injEq] at hout
  rw [← hout]
  exact adv_nodup h h2 hlt hv

/-- Non-vacuity of C04: a search returning two matrices. -/
example : (seed 10 6 3 4 >>= advance).map List.length = .ok 2 := by decide +kernel

end TDS
