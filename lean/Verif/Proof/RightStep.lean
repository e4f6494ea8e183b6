import Verif.Proof.Levels

/-! A right row is found by the step (C07), so it need not be evaluated to know that. -/

namespace TDS

/-- Columns `i` and `j` of `m` are equal. -/
def sameCol (m : Mat) (i j : Nat) : Bool := m.all (fun r => r.getD i 0 == r.getD j 0)

theorem sameCol_iff {m : Mat} {i j : Nat} : sameCol m i j = true ↔ Spec.ColEq m i j := by
  unfold sameCol Spec.ColEq
  simp

/-- `row` is a right row after `m`, in a form that can be evaluated. -/
def rightStep (v : Nat) (k l u : Int) (m : Mat) (row : Vec) : Bool :=
  m.all (fun r => r.length == v && r.all (fun x => x == 0 || x == 1)) &&
  (List.range v).all (fun c => (List.range c).all (fun j => (List.range j).all (fun i =>
    decide (i ≤ m.length) || !sameCol m i c || sameCol m i j))) &&
  (kOf m == k && lOf m == l && uOf m == u) &&
  (row == Spec.nextRow m (row.drop (m.length + 1)) && row.length == v && row.all (fun x => x == 0 || x == 1)) &&
  (row.sum == k && (List.range m.length).all (fun i => Spec.meet (m.getD i []) row ==
    if Spec.ent m i m.length = 1 then l else u)) &&
  (List.range v).all (fun j => (List.range j).all (fun i =>
    decide (i ≤ m.length) || !sameCol m i j || decide (row.getD j 0 ≤ row.getD i 0)))

theorem rightStep_mem {v : Nat} {k l u : Int} {m : Mat} {row : Vec} (h2 : 2 ≤ m.length) (hlt : m.length < v)
    (hv : v ≤ 66) (hl : 0 ≤ l) (hu : 0 ≤ u) (hu' : u ≤ 127) (h : rightStep v k l u m row = true) :
    m ++ [row] ∈ adv m := by
  simp only [rightStep, Bool.and_eq_true, Bool.or_eq_true, List.all_eq_true, List.mem_range, beq_iff_eq,
    decide_eq_true_eq, Bool.not_eq_true', ← Bool.not_eq_true, sameCol_iff] at h
  obtain ⟨⟨⟨⟨⟨hm, ha⟩, ⟨hk', hl'⟩, hu''⟩, ⟨hr, hlen⟩, hb⟩, hs⟩, hj⟩ := h
  have hp : Spec.Part v m := ⟨fun r hr => (hm r hr).1, fun r hr => (hm r hr).2, by omega⟩
  obtain ⟨rows, ho⟩ := advance_spec hp h2 hlt hv
  rw [ho.adv_eq, List.mem_map]
  refine ⟨row.drop (m.length + 1), ?_, by rw [← hr]⟩
  have hadj : Spec.Adjacent v m := by
    intro i j c hi hij hjc hc he
    rcases ha c hc j hjc i hij with h | h
    · rcases h with h | h
      · omega
      · exact absurd he h
    · exact h
  refine ho.all hadj k l u ⟨hk', hl', hu'', hl, hu, hu'⟩ _ ?_ (fun x hx => hb x (List.mem_of_mem_drop hx)) ?_ ?_
  · rw [List.length_drop, hlen]; omega
  · rw [← hr]; exact hs
  · rw [← hr]
    intro i j hi hij hj' he
    rcases hj j hj' i hij with h | h
    · rcases h with h | h
      · omega
      · exact absurd he h
    · exact h

end TDS
