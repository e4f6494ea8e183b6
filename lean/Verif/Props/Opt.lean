import Verif.Proof.Opt
import Verif.Proof.Exact
import Verif.Proof.Maximize
import Verif.Props.Database
import Verif.Props.Sorter

/-! C81: running with assertions switched off (`python -O`). -/

namespace TDS

/-- C81: on any input whatever, leaving out the assertions changes the outcome of the search, of one
step, of one question, of `partition.enum`, of `maximize`, of `swap_and_verify` and of the command
line only if an assertion fails. -/
theorem C81_only_failures :
    (∀ Q, solveQuestion Q = .error .assertion ∨ solveQuestionN Q = solveQuestion Q) ∧
    (∀ m, advance m = .error .assertion ∨ advanceN m = advance m) ∧
    (∀ m, solve m = .error .assertion ∨ solveN m = solve m) ∧
    (∀ s bounds, Partition.enum s bounds = .error .assertion ∨
      Partition.enumN s bounds = Partition.enum s bounds) ∧
    (∀ argsort A, Sorter.maximize argsort A = .error .assertion ∨
      Sorter.maximizeN argsort A = Sorter.maximize argsort A) ∧
    (∀ M i j, Sorter.swapAndVerify M i j = .error .assertion ∨
      Sorter.swapAndVerifyN M i j = Sorter.swapAndVerify M i j) ∧
    (∀ argv, main argv = .error .assertion ∨ mainN argv = main argv) :=
  ⟨fun Q => (solveQuestion_le Q).imp id Eq.symm, fun m => (advance_le m).imp id Eq.symm,
    fun m => (solve_le m).imp id Eq.symm, fun s b => (Partition.enum_le b s).imp id Eq.symm,
    fun a A => (Sorter.maximize_le a A).imp id Eq.symm,
    fun M i j => (Sorter.swapAndVerify_le M i j).imp id Eq.symm,
    fun argv => (main_le argv).imp id Eq.symm⟩

/-- C81: a step from a partial 0/1 matrix is the same without assertions. -/
theorem C81_step {v : Nat} {m : Mat} (h : Spec.Part v m) (h2 : 2 ≤ m.length) (hlt : m.length < v)
    (hv : v ≤ 66) : advanceN m = advance m := by
  obtain ⟨out, ho, -⟩ := C10_advance_total h h2 hlt hv
  rw [ho]
  exact (advance_le m).eq_ok ho

/-- C81: the search from the seed is the same without assertions, for any `k`, `l`, `u`. -/
theorem C81_search {v : Nat} (hv : 3 ≤ v) (hv' : v ≤ 66) (k l u : Int) :
    (seed v k l u >>= solveN) = (seed v k l u >>= solve) := by
  obtain ⟨s, out, h1, h2⟩ := C05_total hv hv' k l u
  rw [h1, ok_bind, ok_bind, h2]
  exact (solve_le s).eq_ok h2

/-- C81: `maximize` is the same without assertions on every symmetric 0/1 matrix. -/
theorem C81_maximize {argsort : Vec → List Nat} (ha : IsArgsort argsort) {v : Nat} {A : Mat}
    (hs : Spec.Square v A) (hsym : Spec.Symmetric v A) (hb : ∀ r ∈ A, Spec.Bin r) :
    Sorter.maximizeN argsort A = Sorter.maximize argsort A := by
  rcases Sorter.maximize_le argsort A with h | h
  · exfalso
    by_cases hz : ∃ j, 1 ≤ j ∧ j < v ∧ Spec.ent A 0 j = 0
    · obtain ⟨M, hM, -⟩ := Sorter.maximize_ok ha hs hsym hb hz
      rw [hM] at h
      cases h
    · rw [maximize_typeErr ha hs hsym (fun j h1 h2 h3 => hz ⟨j, h1, h2, h3⟩)] at h
      cases h
  · exact h.symm

theorem mainN_eq {argv : List Str} {v k l u : Int} (h : argv.mapM parseInt = .ok [v, k, l, u]) :
    mainN argv = (do
      let s ← seed v k l u
      let ans ← solveN s
      Sorter.sort ans) := by
  unfold mainN
  rw [h, ok_bind]

/-- C81, the command line: without assertions parameters that fail the counting condition are
searched as well.  The argument `u` is not looked at: the output is that of any other `u`. -/
theorem C81_unchecked {argv : List Str} {v k l u : Int}
    (h : argv.mapM parseInt = .ok [v, k, l, u]) (hv : 3 ≤ v) (hv' : v ≤ 66) :
    (∃ out, mainN argv = .ok out) ∧
    ((v - k - 1) * u ≠ k * (k - l - 1) → main argv = .error .assertion) ∧
    ((v - k - 1) * u = k * (k - l - 1) → mainN argv = main argv) ∧
    ∀ argv' u', argv'.mapM parseInt = .ok [v, k, l, u'] → mainN argv' = mainN argv := by
  refine ⟨?_, (C38_rejects h hv hv').1, ?_, ?_⟩
  · rw [mainN_eq h]
    obtain ⟨n, rfl⟩ := Int.eq_ofNat_of_zero_le (show 0 ≤ v by omega)
    obtain ⟨s, ans, h1, h2⟩ := C05_total (v := n) (by omega) (by omega) k l u
    rw [h1, ok_bind, (solve_le s).eq_ok h2, ok_bind]
    have hsh := C03_shape (by omega) (by omega) (show IsOutput n k l u ans from ⟨s, h1, h2⟩)
    obtain ⟨out, g1, -⟩ := C24_sorted (v := n) (by omega)
      (fun m hm => square_of_part (hsh m hm).1 (hsh m hm).2)
    exact ⟨out, g1⟩
  · intro he
    obtain ⟨out, ho⟩ := (C38_rejects h hv hv').2 he
    rw [ho]
    exact (main_le argv).eq_ok ho
  · intro argv' u' h'
    rw [mainN_eq h, mainN_eq h']
    obtain ⟨n, rfl⟩ := Int.eq_ofNat_of_zero_le (show 0 ≤ v by omega)
    rw [seed_eq (by omega), seed_eq (by omega)]

/-- C81: with such parameters everything that is printed is wrong, as there is no such graph. -/
theorem C81_wrong {v : Nat} {k l u : Int} (hv : 0 < v)
    (hne : ((v : Int) - k - 1) * u ≠ k * (k - l - 1)) (m : Mat) : ¬ Spec.IsSRG v k l u m :=
  fun hs => hne ((arr_of_isSRG hs).count hv)

/-- C81: such output exists.  `python -O -m srg 5 2 0 7` prints the pentagon. -/
theorem C81_witness : main (["5", "2", "0", "7"].map String.toList) = .error .assertion ∧
    mainN (["5", "2", "0", "7"].map String.toList) = .ok [pentagon] ∧
    ¬ Spec.IsSRG 5 2 0 7 pentagon :=
  ⟨by decide +kernel, by decide +kernel, fun h => absurd h.meet (by decide)⟩

/-- C81, fewer than three points: there is an error without assertions as well.  For two points it is
an `IndexError`. -/
theorem C81_small {argv : List Str} {v k l u : Int}
    (h : argv.mapM parseInt = .ok [v, k, l, u]) :
    (0 ≤ v ∧ v ≤ 2 → mainN argv = .error .index) ∧ (v < 0 → mainN argv = .error .valueErr) := by
  rw [mainN_eq h]
  constructor
  · rintro ⟨h0, h2⟩
    obtain rfl | rfl | rfl : v = 0 ∨ v = 1 ∨ v = 2 := by omega
    · rfl
    · rfl
    · have hs := seed_eq (v := 2) (Nat.le_refl 2) k l u
      rw [show ((2 : Nat) : Int) = 2 from rfl] at hs
      rw [hs, ok_bind]
      have hq : fromMatrixN [seed0 2 k, seed1 2 k l] = .error .index := by
        have hc : ncols [seed0 2 k, seed1 2 k l] = 2 := seed0_length 2 k
        unfold fromMatrixN vklu
        simp [pyGet, hc]
      have ha : solveN [seed0 2 k, seed1 2 k l] = .error .index := by
        unfold solveN advanceN
        rw [hq]
        rfl
      rw [ha]
      rfl
  · intro hv
    have : seed v k l u = .error .valueErr := by
      unfold seed
      rw [if_pos hv]
    rw [this]
    rfl

/-- Without assertions `swap_and_verify` is `swap`, and `partition.enum` of a negative sum yields nothing. -/
example : Sorter.swapAndVerify [[0, 1], [0, 0]] 0 1 = .error .assertion ∧
    Sorter.swapAndVerifyN [[0, 1], [0, 0]] 0 1 = .ok [[0, 0], [1, 0]] ∧
    Partition.enum (-1) [1, 1] = .error .assertion ∧ Partition.enumN (-1) [1, 1] = .ok [] := by
  decide +kernel

/-- Non-vacuity: a search without assertions. -/
example : (seed 6 3 0 3 >>= solveN).map List.length = .ok 1 := by decide +kernel

end TDS
