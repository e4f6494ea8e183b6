import Verif.Proof.Exact
import Verif.Props.C02

/-! C44: exactly which strongly regular matrices the search returns. -/

namespace TDS

/-- **C44.**  A strongly regular matrix is returned for its parameters if and only if each of its
rows is justified to the left inside the classes of columns that agree above it. -/
theorem C44_exact {v : Nat} {k l u : Int} (hv : 3 ≤ v) (hv' : v ≤ 66) (hkl : 0 < k ∨ l = 0)
    {out : List Mat} (ho : IsOutput v k l u out) {m : Mat} (h : Spec.IsSRG v k l u m) :
    m ∈ out ↔ Spec.Justified v m := by
  constructor
  · obtain ⟨h1, h2, h3⟩ := (arr_of_isSRG h).bounds (by omega) hkl
    exact output_justified hv hv' h1 h2 h3 ho m
  · intro hj
    rw [ho.eq hv hv']
    exact mem_of_justified h hj hv hv' hkl

/-- **C44**, without assuming strong regularity: the results whose rows all have `k` ones are the
justified strongly regular matrices. -/
theorem C44_regular {v : Nat} {k l u : Int} (h : Good v k l u) {out : List Mat}
    (ho : IsOutput v k l u out) (m : Mat) :
    (m ∈ out ∧ ∀ r ∈ m, r.sum = k) ↔ (Spec.IsSRG v k l u m ∧ Spec.Justified v m) := by
  have hk : 0 < k ∨ l = 0 := Or.inl (lt_of_le_of_lt h.l0 h.lk)
  constructor
  · rintro ⟨h1, h2⟩
    have h3 := (C02_sound_of_regular h ho m h1).2 h2
    exact ⟨h3, (C44_exact h.v3 h.v66 hk ho h3).1 h1⟩
  · rintro ⟨h1, h2⟩
    exact ⟨(C44_exact h.v3 h.v66 hk ho h1).2 h2, h1.deg⟩

/-- Non-vacuity: the pentagon as the search returns it, and a numbering that is not justified. -/
example : Spec.Justified 5
      [[0, 1, 1, 0, 0], [1, 0, 0, 1, 0], [1, 0, 0, 0, 1], [0, 1, 0, 0, 1], [0, 0, 1, 1, 0]] ∧
    ¬ Spec.Justified 5
      [[0, 1, 0, 0, 1], [1, 0, 1, 0, 0], [0, 1, 0, 1, 0], [0, 0, 1, 0, 1], [1, 0, 0, 1, 0]] := by
  unfold Spec.Justified Spec.LeftJustified Spec.ColEq
  constructor
  · intro R hR i j hi hij hj he
    revert hi he
    revert i
    revert j
    revert R
    decide
  · intro h
    have := h 0 (by omega) 2 4 (by simp) (by omega) (by omega) (by simp)
    revert this
    decide

end TDS
