import Verif.Props.Unique

/-! C21, continued: what `expand` does with any bounds. -/

namespace TDS

namespace Spec

/-- Each entry repeated as often as its bound says. -/
def repeated (r bounds : Vec) : Vec := (List.zipWith (fun a n => List.replicate n.toNat a) r bounds).flatten

end Spec

theorem zip_repeated (r : Vec) (bounds : Vec) (c : Nat) (h : c + bounds.length ≤ r.length) :
    ((bounds.zipIdx c).map (fun p => List.replicate p.1.toNat (r.getD p.2 0))).flatten =
      Spec.repeated (r.drop c) bounds := by
  induction bounds generalizing c with
  | nil => simp [Spec.repeated]
  | cons b t ih =>
    simp only [List.length_cons] at h
    have hc : c < r.length := by omega
    rw [List.zipIdx_cons, List.map_cons, List.flatten_cons, ih (c + 1) (by omega), List.drop_eq_getElem_cons hc]
    simp only [Spec.repeated, List.zipWith_cons_cons, List.flatten_cons]
    rw [List.getD_eq_getElem _ _ hc]

theorem expandLoop_bad (A : Mat) (c d : Nat) (bounds : Vec) (hd : d < bounds.length) (hc : c + d ≤ ncols A)
    (hb : ∀ x ∈ bounds.take d, 0 ≤ x) :
    (c + d = ncols A → Unique.expandLoop A c bounds = .error .index) ∧
    (c + d < ncols A → bounds.getD d 0 < 0 → Unique.expandLoop A c bounds = .error .valueErr) := by
  induction bounds generalizing c d with
  | nil => simp at hd
  | cons b t ih =>
    unfold Unique.expandLoop
    cases d with
    | zero =>
      refine ⟨fun h => by rw [if_pos (by omega)], fun h h0 => ?_⟩
      rw [if_neg (by omega), if_pos (by simpa using h0)]
    | succ d =>
      have hb0 : 0 ≤ b := hb b (by simp)
      obtain ⟨h1, h2⟩ := ih (c + 1) d (by simpa using hd) (by omega)
        (fun x hx => hb x (by rw [List.take_succ_cons]; exact List.mem_cons_of_mem _ hx))
      rw [if_neg (by omega), if_neg (by omega)]
      refine ⟨fun h => ?_, fun h h0 => ?_⟩
      · rw [h1 (by omega)]; rfl
      · rw [h2 (by omega) (by simpa using h0)]; rfl

/-- **C21.**  `expand` for any matrix with `C` columns and any bounds: every row with its entries repeated; without
bounds a `ValueError`; and the first bound that has no column is an `IndexError`, the first negative one a
`ValueError`. -/
theorem C21_expand {A : Mat} {C : Nat} (hne : A ≠ []) (hrect : ∀ r ∈ A, r.length = C) (bounds : Vec) :
    (bounds = [] → Unique.expand A bounds = .error .valueErr) ∧
    (bounds ≠ [] → bounds.length ≤ C → (∀ x ∈ bounds, 0 ≤ x) →
      Unique.expand A bounds = .ok (A.map (fun r => Spec.repeated r bounds))) ∧
    ∀ d < bounds.length, d ≤ C → (∀ x ∈ bounds.take d, 0 ≤ x) →
      (d = C → Unique.expand A bounds = .error .index) ∧
      (d < C → bounds.getD d 0 < 0 → Unique.expand A bounds = .error .valueErr) := by
  have hnc : ncols A = C := by
    cases A with
    | nil => exact absurd rfl hne
    | cons r t => exact hrect r (by simp)
  refine ⟨fun h => by subst h; rfl, fun h1 h2 h3 => ?_, fun d hd hdC hb => ?_⟩
  · unfold Unique.expand
    rw [Unique.expandLoop_ok A 0 bounds (by omega) h3]
    obtain ⟨b, t, rfl⟩ := List.exists_cons_of_ne_nil h1
    show Except.ok _ = _
    congr 1
    apply List.ext_getElem
    · simp
    · intro i hi hi'
      have hiA : i < A.length := by simpa using hi
      rw [List.getElem_map, List.getElem_map, List.getElem_range]
      have hl := hrect _ (List.getElem_mem hiA)
      rw [← List.drop_zero (l := A[i]), ← zip_repeated _ _ 0 (by omega), List.map_map]
      congr 1
      refine List.map_congr_left fun p _ => ?_
      simp [col, hiA]
  · unfold Unique.expand
    obtain ⟨h1, h2⟩ := expandLoop_bad A 0 d bounds hd (by omega) hb
    refine ⟨fun h => ?_, fun h h0 => ?_⟩
    · rw [h1 (by omega)]; rfl
    · rw [h2 (by omega) h0]; rfl

/-- Non-vacuity: the four cases. -/
example : Unique.expand [[1, 0], [0, 1]] [2, 1] = .ok [[1, 1, 0], [0, 0, 1]] ∧
    Unique.expand [[1, 0], [0, 1]] [] = .error .valueErr ∧
    Unique.expand [[1, 0], [0, 1]] [2, 1, 1] = .error .index ∧
    Unique.expand [[1, 0], [0, 1]] [2, -1, 1] = .error .valueErr := by decide

end TDS
