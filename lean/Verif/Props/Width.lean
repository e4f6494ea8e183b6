import Verif.Proof.Sound
import Verif.Proof.Width

/-! C59: the number format of the arrays does not matter. -/

namespace TDS

namespace Spec

/-- Storing a number does not change it if an `int8` can hold it.  Nothing is said about other
numbers: they may wrap, saturate, stay as they are, or become anything else, and differently at
each place. -/
def Faithful (w : Width) : Prop := ∀ s x, -128 ≤ x → x ≤ 127 → w s x = x

end Spec

/-- With `int8` at all places the open-format search is the search of the model, on every input. -/
theorem C59_model (m : Mat) : solveW (fun _ => i8) m = solve m := solveW_int8 m

/-- **C59, one matrix.**  Let `m` be a 0/1 matrix with at least two and fewer than `v ≤ 66` rows of
length `v`, and suppose the number `u` that `vklu` computes from the first two rows fits in an
`int8` and is not negative.  Then the search from `m` gives the same result with every faithful
format. -/
theorem C59_matrix {v : Nat} {m : Mat} (h : Spec.Part v m) (h2 : 2 ≤ m.length)
    (hlt : m.length < v) (hv : v ≤ 66) {k l u : Int} (hk : vklu m = .ok ((v : Int), k, l, u))
    (hu0 : 0 ≤ u) (hu : u ≤ 127) {w : Width} (hw : Spec.Faithful w) :
    solveW w m = solve m := by
  rw [vklu_eq h2] at hk
  simp only [Except.ok.injEq, Prod.mk.injEq] at hk
  obtain ⟨-, rfl, rfl, rfl⟩ := hk
  have hr0 : m.getD 0 [] ∈ m := by
    rw [List.getD_eq_getElem _ _ (by omega)]; exact List.getElem_mem _
  have hr1 : m.getD 1 [] ∈ m := by
    rw [List.getD_eq_getElem _ _ (by omega)]; exact List.getElem_mem _
  have hlb := bin_dot_le (h.bin _ hr0) (h.bin _ hr1)
  rw [h.rect _ hr0] at hlb
  have hl0 : 0 ≤ lOf m := by
    unfold lOf; rw [i8_of_range (by omega) (by omega)]; exact hlb.1
  exact solveW_eq hw h h2 hlt hv ⟨rfl, rfl, rfl, hl0, hu0, hu⟩

/-- **C59.**  For all parameters of a strongly regular graph with `v ≤ 66` the search returns the
same list with every faithful format; in particular no number it stores is ever too large for an
`int8`. -/
theorem C59_format {v : Nat} {k l u : Int} (h : Good v k l u) {s : Mat}
    (hs : seed v k l u = .ok s) {w : Width} (hw : Spec.Faithful w) : solveW w s = solve s := by
  have hv := h.v3
  rw [seed_eq (by omega)] at hs
  cases hs
  exact solveW_eq hw (seed_part (by omega) k l) (by simp) (by simp; omega) h.v66 h.vals

/-- Formats the theorem is about: 16-bit and 64-bit integers, integers without bound, saturating
8-bit arithmetic, and `int64` right-hand sides in an otherwise `int8` program. -/
example : Spec.Faithful (fun _ x => Int.bmod x (2 ^ 16)) ∧
    Spec.Faithful (fun _ x => Int.bmod x (2 ^ 64)) ∧ Spec.Faithful (fun _ x => x) ∧
    Spec.Faithful (fun _ x => max (-128) (min x 127)) ∧
    Spec.Faithful (fun s x => if s = .rhs then Int.bmod x (2 ^ 64) else i8 x) := by
  refine ⟨?_, ?_, ?_, ?_, ?_⟩
  · intro s x h1 h2; exact Int.bmod_eq_of_le (by omega) (by omega)
  · intro s x h1 h2; exact Int.bmod_eq_of_le (by omega) (by omega)
  · intro s x h1 h2; rfl
  · intro s x h1 h2; show max (-128) (min x 127) = x; omega
  · intro s x h1 h2
    show (if s = .rhs then Int.bmod x (2 ^ 64) else i8 x) = x
    split
    · exact Int.bmod_eq_of_le (by omega) (by omega)
    · exact i8_of_range h1 h2

/-- The search for (16,6,2,2) without any wrap-around gives the two graphs. -/
example : ((seed 16 6 2 2 >>= solveW (fun _ x => x)).map List.length) = .ok 2 := by decide +kernel

/-- A format that is not faithful changes the result: with 2-bit right-hand sides nothing is found
for (10,3,0,1). -/
example : ((seed 10 3 0 1 >>= solve).map List.length) = .ok 1 ∧
    ((seed 10 3 0 1 >>= solveW (fun s x => if s = .decoded then Int.bmod x 4 else x)).map
      List.length) ≠ .ok 1 := by decide +kernel

/-- The bound on `u` is needed.  In this 2 by 16 matrix `u` is 182, which an `int8` turns into -74,
and `from_matrix` finds a contradiction that is not there for wider numbers. -/
example : let m : Mat := [[0, 1, 1, 1, 1, 1, 1, 1, 1, 1, 1, 1, 1, 1, 1, 0],
      [1, 0, 0, 0, 0, 0, 0, 0, 0, 0, 0, 0, 0, 0, 0, 1]]
    vklu m = .ok (16, 14, 0, 182) ∧ fromMatrix m = .error .noSolution ∧
      (fromMatrixW (fun _ x => x) m).toOption.isSome := by decide +kernel

end TDS
