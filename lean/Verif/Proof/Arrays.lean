import Verif.SpecM
import Verif.Proof.Relabel
import Verif.Model.Sorter
import Verif.Model.Utils
import Mathlib.Algebra.BigOperators.Fin

/-! Square matrices as functions of two indices; relabelling. -/

namespace TDS

open Finset

theorem ent_of_lt {v : Nat} {m : Mat} (h : Spec.Square v m) {i j : Nat} (hi : i < m.length)
    (hj : j < (m[i]).length) : Spec.ent m i j = m[i][j] := by
  unfold Spec.ent
  rw [List.getD_eq_getElem _ _ hi, List.getD_eq_getElem _ _ hj]

theorem getD_map_lt {α β : Type} {l : List α} {f : α → β} {i : Nat} (hi : i < l.length) (d : β)
    (d' : α) : (l.map f).getD i d = f (l.getD i d') := by
  rw [List.getD_eq_getElem _ _ (by simpa using hi), List.getElem_map, List.getD_eq_getElem _ _ hi]

theorem getD_map_range {β : Type} {n : Nat} {f : Nat → β} {i : Nat} (hi : i < n) (d : β) :
    ((List.range n).map f).getD i d = f i := by
  rw [List.getD_eq_getElem _ _ (by simpa using hi), List.getElem_map, List.getElem_range]

theorem square_ext {v : Nat} {m m' : Mat} (h : Spec.Square v m) (h' : Spec.Square v m')
    (he : ∀ i < v, ∀ j < v, Spec.ent m i j = Spec.ent m' i j) : m = m' := by
  apply List.ext_getElem (by rw [h.rows, h'.rows])
  intro i hi hi'
  have h1 := h.rect m[i] (List.getElem_mem _)
  have h2 := h'.rect m'[i] (List.getElem_mem _)
  apply List.ext_getElem (by rw [h1, h2])
  intro j hj hj'
  have := he i (by rw [← h.rows]; exact hi) j (by omega)
  rwa [ent_of_lt h hi hj, ent_of_lt h' hi' hj'] at this

theorem matOf_square (v : Nat) (M : Nat → Nat → Int) : Spec.Square v (matOf v M v) := by
  refine ⟨by simp, ?_⟩
  intro r hr
  obtain ⟨i, -, rfl⟩ := mem_matOf.1 hr
  simp

theorem ent_matOf {v : Nat} {M : Nat → Nat → Int} {i j : Nat} (hi : i < v) (hj : j < v) :
    Spec.ent (matOf v M v) i j = M i j := by
  unfold Spec.ent
  rw [matOf_getD hi, rowAt_getD hj]

theorem square_of_part {v : Nat} {m : Mat} (h : Spec.Part v m) (hl : m.length = v) :
    Spec.Square v m := ⟨hl, h.rect⟩

theorem row_sum_fin {v : Nat} {m : Mat} (h : Spec.Square v m) {i : Nat} (hi : i < v) :
    (m.getD i []).sum = ∑ t : Fin v, Spec.ent m i t := by
  have hlen : (m.getD i []).length = v := by
    rw [List.getD_eq_getElem _ _ (by rw [h.rows]; exact hi)]
    exact h.rect _ (List.getElem_mem _)
  have h1 : m.getD i [] = (List.range v).map (fun j => Spec.ent m i j) := by
    apply List.ext_getElem (by rw [hlen]; simp)
    intro j hj hj'
    rw [List.getElem_map, List.getElem_range]
    unfold Spec.ent
    rw [List.getD_eq_getElem _ _ hj]
  rw [h1, list_sum_range, Finset.sum_range]

theorem row_meet_fin {v : Nat} {m : Mat} (h : Spec.Square v m) {i j : Nat} (hi : i < v) :
    Spec.meet (m.getD i []) (m.getD j []) = ∑ t : Fin v, Spec.ent m i t * Spec.ent m j t := by
  have hlen : (m.getD i []).length = v := by
    rw [List.getD_eq_getElem _ _ (by rw [h.rows]; exact hi)]
    exact h.rect _ (List.getElem_mem _)
  unfold Spec.meet
  rw [hlen, list_sum_range, Finset.sum_range]
  rfl

theorem mem_row {v : Nat} {m : Mat} (h : Spec.Square v m) {r : Vec} (hr : r ∈ m) :
    ∃ i < v, r = m.getD i [] := by
  obtain ⟨i, hi, rfl⟩ := List.getElem_of_mem hr
  exact ⟨i, by rw [← h.rows]; exact hi, by rw [List.getD_eq_getElem _ _ hi]⟩

theorem bin_iff {v : Nat} {m : Mat} (h : Spec.Square v m) :
    (∀ r ∈ m, Spec.Bin r) ↔ ∀ i < v, ∀ j < v, Spec.ent m i j = 0 ∨ Spec.ent m i j = 1 := by
  constructor
  · intro hb i hi j hj
    unfold Spec.ent
    have hi' : i < m.length := by rw [h.rows]; exact hi
    have hj' : j < (m[i]).length := by rw [h.rect _ (List.getElem_mem _)]; exact hj
    rw [List.getD_eq_getElem _ _ hi', List.getD_eq_getElem _ _ hj']
    exact hb _ (List.getElem_mem _) _ (List.getElem_mem _)
  · intro hb r hr x hx
    obtain ⟨i, hi, rfl⟩ := List.getElem_of_mem hr
    obtain ⟨j, hj, rfl⟩ := List.getElem_of_mem hx
    rw [← ent_of_lt h hi hj]
    exact hb i (by rw [← h.rows]; exact hi) j (by rw [← h.rect _ (List.getElem_mem hi)]; exact hj)

theorem isSRG_iff {v : Nat} {k l u : Int} {m : Mat} : Spec.IsSRG v k l u m ↔
    Spec.Square v m ∧ (∀ i j : Fin v, Spec.ent m i j = 0 ∨ Spec.ent m i j = 1) ∧
      (∀ i : Fin v, Spec.ent m i i = 0) ∧ (∀ i j : Fin v, Spec.ent m i j = Spec.ent m j i) ∧
      (∀ i : Fin v, ∑ t : Fin v, Spec.ent m i t = k) ∧
      (∀ i j : Fin v, i ≠ j → ∑ t : Fin v, Spec.ent m i t * Spec.ent m j t =
        if Spec.ent m i j = 1 then l else u) := by
  constructor
  · intro h
    have hs : Spec.Square v m := ⟨h.adj.square, h.adj.part.rect⟩
    refine ⟨hs, fun i j => (bin_iff hs).1 h.adj.part.bin i i.2 j j.2,
      fun i => h.adj.sym.diag i (by rw [hs.rows]; exact i.2),
      fun i j => h.adj.sym.sym i (by rw [hs.rows]; exact i.2) j (by rw [hs.rows]; exact j.2),
      fun i => ?_, fun i j hij => ?_⟩
    · rw [← row_sum_fin hs i.2]
      apply h.deg
      rw [List.getD_eq_getElem _ _ (by rw [hs.rows]; exact i.2)]
      exact List.getElem_mem _
    · rw [← row_meet_fin hs i.2]
      exact h.meet i i.2 j j.2 (fun hc => hij (Fin.ext hc))
  · rintro ⟨hs, hb, hd, hsy, hdeg, hm⟩
    refine ⟨⟨⟨hs.rect, (bin_iff hs).2 (fun i hi j hj => hb ⟨i, hi⟩ ⟨j, hj⟩), hs.rows.le⟩, hs.rows,
      ⟨fun i hi => hd ⟨i, by rw [← hs.rows]; exact hi⟩,
       fun i hi j hj => hsy ⟨i, by rw [← hs.rows]; exact hi⟩ ⟨j, by rw [← hs.rows]; exact hj⟩⟩⟩,
      ?_, ?_⟩
    · intro r hr
      obtain ⟨i, hi, rfl⟩ := mem_row hs hr
      rw [row_sum_fin hs hi]
      exact hdeg ⟨i, hi⟩
    · intro i hi j hj hij
      rw [row_meet_fin hs hi]
      exact hm ⟨i, hi⟩ ⟨j, hj⟩ (fun hc => hij (by simpa using hc))

/-- Strong regularity is invariant under relabelling. -/
theorem isSRG_relabel {v : Nat} {k l u : Int} {m m' : Mat} (h : Spec.IsSRG v k l u m)
    (hs' : Spec.Square v m') (hr : Spec.Relabels v m m') : Spec.IsSRG v k l u m' := by
  rw [isSRG_iff] at h ⊢
  obtain ⟨-, hb, hd, hsy, hdeg, hm⟩ := h
  obtain ⟨σ, hσ⟩ := hr
  refine ⟨hs', fun i j => by rw [hσ]; exact hb _ _, fun i => by rw [hσ]; exact hd _,
    fun i j => by rw [hσ, hσ]; exact hsy _ _, fun i => ?_, fun i j hij => ?_⟩
  · simp only [hσ]
    rw [Equiv.sum_comp σ (fun t : Fin v => Spec.ent m (σ i) t)]
    exact hdeg _
  · simp only [hσ]
    rw [Equiv.sum_comp σ (fun t : Fin v => Spec.ent m (σ i) t * Spec.ent m (σ j) t)]
    exact hm _ _ (fun hc => hij (σ.injective hc))

theorem relabels_refl (v : Nat) (m : Mat) : Spec.Relabels v m m := ⟨Equiv.refl _, fun _ _ => rfl⟩

theorem relabels_trans {v : Nat} {m m' m'' : Mat} (h : Spec.Relabels v m m')
    (h' : Spec.Relabels v m' m'') : Spec.Relabels v m m'' := by
  obtain ⟨σ, hσ⟩ := h
  obtain ⟨τ, hτ⟩ := h'
  exact ⟨τ.trans σ, fun i j => by rw [hτ, hσ]; rfl⟩

theorem relabels_symm {v : Nat} {m m' : Mat} (h : Spec.Relabels v m m') :
    Spec.Relabels v m' m := by
  obtain ⟨σ, hσ⟩ := h
  exact ⟨σ.symm, fun i j => by rw [hσ]; simp⟩

theorem symmetric_relabel {v : Nat} {m m' : Mat} (hr : Spec.Relabels v m m')
    (h : Spec.Symmetric v m) : Spec.Symmetric v m' := by
  obtain ⟨σ, hσ⟩ := hr
  intro i hi j hj
  have h1 := hσ ⟨i, hi⟩ ⟨j, hj⟩
  have h2 := hσ ⟨j, hj⟩ ⟨i, hi⟩
  simp only at h1 h2
  rw [h1, h2]
  exact h _ (σ ⟨i, hi⟩).2 _ (σ ⟨j, hj⟩).2

/-! ### `permute` -/

namespace Sorter

theorem permute_square {M : Mat} {ii : List Nat} : Spec.Square ii.length (permute M ii) := by
  refine ⟨by simp [permute], ?_⟩
  intro r hr
  obtain ⟨i, -, rfl⟩ := List.mem_map.1 hr
  simp

theorem permute_ent {M : Mat} {ii : List Nat} {i j : Nat} (hi : i < ii.length)
    (hj : j < ii.length) :
    Spec.ent (permute M ii) i j = Spec.ent M (ii.getD i 0) (ii.getD j 0) := by
  unfold Spec.ent permute
  rw [getD_map_lt hi [] 0, getD_map_lt hj 0 0]

/-- The permutation of `Fin v` given by a rearrangement of `0..v-1`. -/
theorem exists_perm {v : Nat} {ii : List Nat} (h : ii.Perm (List.range v)) :
    ∃ σ : Equiv.Perm (Fin v), ∀ i : Fin v, ii.getD i 0 = σ i := by
  have hlen : ii.length = v := by rw [h.length_eq]; simp
  have hlt : ∀ i : Fin v, ii.getD i 0 < v := by
    intro i
    rw [List.getD_eq_getElem _ _ (by rw [hlen]; exact i.2)]
    exact List.mem_range.1 (h.mem_iff.1 (List.getElem_mem _))
  have hnd : ii.Nodup := h.nodup_iff.2 List.nodup_range
  let f : Fin v → Fin v := fun i => ⟨ii.getD i 0, hlt i⟩
  have hinj : Function.Injective f := by
    intro i j hij
    have h1 : ii.getD i 0 = ii.getD j 0 := by simpa [f] using hij
    rw [List.getD_eq_getElem _ _ (by rw [hlen]; exact i.2),
      List.getD_eq_getElem _ _ (by rw [hlen]; exact j.2)] at h1
    exact Fin.ext ((hnd.getElem_inj_iff).1 h1)
  exact ⟨Equiv.ofBijective f (Finite.injective_iff_bijective.1 hinj), fun i => rfl⟩

theorem permute_relabels {v : Nat} {M : Mat} {ii : List Nat} (h : ii.Perm (List.range v)) :
    Spec.Square v (permute M ii) ∧ Spec.Relabels v M (permute M ii) := by
  have hlen : ii.length = v := by rw [h.length_eq]; simp
  obtain ⟨σ, hσ⟩ := exists_perm h
  refine ⟨hlen ▸ permute_square, σ, ?_⟩
  intro i j
  rw [permute_ent (by rw [hlen]; exact i.2) (by rw [hlen]; exact j.2), hσ, hσ]

theorem transpose_square {v : Nat} {M : Mat} (h : M.length = v) :
    Spec.Square v (transpose M) := by
  refine ⟨by simp [transpose, h], ?_⟩
  intro r hr
  obtain ⟨i, -, rfl⟩ := List.mem_map.1 hr
  simp [h]

theorem transpose_ent {v : Nat} {M : Mat} (h : M.length = v) {i j : Nat} (hi : i < v)
    (hj : j < v) : Spec.ent (transpose M) i j = Spec.ent M j i := by
  unfold Spec.ent transpose
  rw [h, getD_map_range hi, getD_map_range hj]

theorem eq_transpose_iff {v : Nat} {M : Mat} (h : Spec.Square v M) :
    M = transpose M ↔ Spec.Symmetric v M := by
  constructor
  · intro he i hi j hj
    conv_rhs => rw [he]
    rw [transpose_ent h.rows hj hi]
  · intro hs
    refine square_ext h (transpose_square h.rows) ?_
    intro i hi j hj
    rw [transpose_ent h.rows hi hj]
    exact hs i hi j hj

end Sorter

end TDS
