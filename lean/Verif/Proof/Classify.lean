import Verif.SpecG
import Verif.Model.Main
import Verif.Props.C01
import Verif.Proof.Sorter
import Verif.Proof.Bits

/-! Runs of the program as classifications. -/

namespace TDS

open Spec

/-- A run of the program that ends without an exception lists all graphs. -/
theorem complete_of_main {argv : List Str} {v k l u : ℕ} {sols : List Mat}
    (hp : argv.mapM parseInt = .ok [(v : Int), (k : Int), (l : Int), (u : Int)])
    (hm : main argv = .ok sols) (hv : 3 ≤ v) (hv' : v ≤ 66) (hkl : 0 < k ∨ l = 0) :
    Complete v k l u sols := by
  intro V _ _ G _ hG
  obtain ⟨s, out, h1, h2, m, hmem, hd⟩ := C01_complete G hG hv hv' hkl
  refine ⟨m, ?_, hd⟩
  unfold main at hm
  rw [hp, ok_bind] at hm
  dsimp only at hm
  obtain ⟨_, _, hm⟩ := bind_eq_ok.1 hm
  rw [h1, ok_bind, h2, ok_bind] at hm
  unfold Sorter.sort at hm
  split at hm
  · cases hm
  · cases hm
    exact (Sorter.foldr_perm out).mem_iff.2 hmem

/-- `p` lists a permutation of `0, …, v-1`. -/
def isPerm (v : Nat) (p : List Nat) : Bool :=
  decide (p.length = v) && p.all (fun x => decide (x < v)) && decide p.Nodup

theorem perm_equiv {v : Nat} {p : List Nat} (h : isPerm v p = true) :
    ∃ σ : Fin v ≃ Fin v, ∀ i, (σ i : Nat) = p.getD i 0 := by
  unfold isPerm at h
  simp only [Bool.and_eq_true, decide_eq_true_eq, List.all_eq_true] at h
  obtain ⟨⟨hl, hb⟩, hn⟩ := h
  let f : Fin v → Fin v := fun i => ⟨p[i]'(hl.symm ▸ i.2), hb _ (List.getElem_mem _)⟩
  have hf : Function.Injective f := by
    intro i j e
    have : p[i]'(hl.symm ▸ i.2) = p[j]'(hl.symm ▸ j.2) := congrArg Fin.val e
    exact Fin.ext ((List.Nodup.getElem_inj_iff hn).1 this)
  refine ⟨Equiv.ofBijective f (Finite.injective_iff_bijective.1 hf), ?_⟩
  intro i
  show p[i]'(hl.symm ▸ i.2) = _
  rw [List.getD_eq_getElem?_getD, List.getElem?_eq_getElem (hl.symm ▸ i.2), Option.getD_some]
  rfl

theorem Depicts.relabel {V : Type*} {G : SimpleGraph V} {v : Nat} {m m' : Mat}
    (h : Depicts v m G) (hp : Relabels v m' m) : Depicts v m' G := by
  obtain ⟨e, he⟩ := h
  obtain ⟨σ, hσ⟩ := hp
  refine ⟨e.trans σ, ?_⟩
  intro a b
  rw [he, hσ, Equiv.trans_apply, Equiv.trans_apply]

theorem Depicts.iso {V W : Type*} {G : SimpleGraph V} {H : SimpleGraph W} {v : Nat} {m : Mat}
    (h : Depicts v m G) (h' : Depicts v m H) : Nonempty (G ≃g H) := by
  obtain ⟨e, he⟩ := h
  obtain ⟨f, hf⟩ := h'
  refine ⟨⟨e.trans f.symm, ?_⟩⟩
  intro a b
  rw [hf, he]
  simp

/-- The graphs of a complete list, replaced by isomorphic ones. -/
theorem Complete.relabel.{w} {v k l u : Nat} {L L' : List Mat} (h : Complete.{w} v k l u L)
    (hp : ∀ m ∈ L, ∃ m' ∈ L', Relabels v m' m) : Complete.{w} v k l u L' := by
  intro V _ _ G _ hG
  obtain ⟨m, hm, hd⟩ := h V G hG
  obtain ⟨m', hm', hp⟩ := hp m hm
  exact ⟨m', hm', Depicts.relabel hd hp⟩

theorem Alone.of_complete.{w, w'} {v k l u : Nat} {m : Mat} (h : Complete.{w} v k l u [m])
    (h' : Complete.{w'} v k l u [m]) : Alone.{w, w'} v k l u := by
  intro V _ _ G _ W _ _ H _ hG hH
  obtain ⟨m1, h1, hd1⟩ := h V G hG
  obtain ⟨m2, h2, hd2⟩ := h' W H hH
  rw [List.mem_singleton] at h1 h2
  subst h1; subst h2
  exact Depicts.iso hd1 hd2

/-! ### Relabellings of stored matrices -/

open Database

/-- Renumbering the matrix with rows `r` by `p` gives the matrix with rows `r'`. -/
def sameBits (v : Nat) (r r' p : List Nat) : Bool :=
  isPerm v p && (List.range v).all (fun i => (List.range v).all (fun j =>
    (r.getD i 0).testBit (v - 1 - j) ==
      (r'.getD (p.getD i 0) 0).testBit (v - 1 - p.getD j 0)))

theorem relabels_of_sameBits {v : Nat} {r r' p : List Nat} (hr : r.length = v)
    (hr' : r'.length = v) (h : sameBits v r r' p = true) :
    Relabels v (bitMat v r') (bitMat v r) := by
  unfold sameBits at h
  rw [Bool.and_eq_true] at h
  obtain ⟨σ, hσ⟩ := perm_equiv h.1
  refine ⟨σ, ?_⟩
  intro i j
  have h2 := h.2
  rw [List.all_eq_true] at h2
  have := h2 i (List.mem_range.2 i.2)
  rw [List.all_eq_true] at this
  have := this j (List.mem_range.2 j.2)
  rw [beq_iff_eq] at this
  rw [bitMat_ent hr i.2 j.2, this, bitMat_ent hr' (σ i).2 (σ j).2, hσ, hσ]

/-! ### Cliques -/

/-- Number of sequences of `r` pairwise adjacent elements of a list. -/
def cliques {α : Type} (adj : α → α → Bool) : Nat → List α → Nat
  | 0, _ => 1
  | r + 1, c => (c.map (fun x => cliques adj r (c.filter (adj x)))).sum

theorem cliques_perm {α : Type} (adj : α → α → Bool) : ∀ (r : Nat) {c c' : List α}, c.Perm c' →
    cliques adj r c = cliques adj r c'
  | 0, _, _, _ => rfl
  | r + 1, c, c', h => by
    unfold cliques
    have : (fun x => cliques adj r (c.filter (adj x))) =
        (fun x => cliques adj r (c'.filter (adj x))) := by
      funext x
      exact cliques_perm adj r (h.filter _)
    rw [this]
    exact (h.map _).sum_eq

theorem cliques_map {α β : Type} (adj : β → β → Bool) (f : α → β) : ∀ (r : Nat) (c : List α),
    cliques adj r (c.map f) = cliques (fun x y => adj (f x) (f y)) r c
  | 0, _ => rfl
  | r + 1, c => by
    unfold cliques
    rw [List.map_map]
    congr 1
    apply List.map_congr_left
    intro x _
    show cliques adj r ((c.map f).filter (adj (f x))) = _
    rw [List.filter_map, cliques_map adj f r]
    rfl

/-- Number of sequences of `r` pairwise adjacent vertices. -/
def cliqueCount (v : Nat) (m : Mat) (r : Nat) : Nat :=
  cliques (fun i j : Fin v => decide (ent m i j = 1)) r (List.finRange v)

theorem cliqueCount_relabel {v : Nat} {m m' : Mat} (h : Relabels v m m') (r : Nat) :
    cliqueCount v m r = cliqueCount v m' r := by
  obtain ⟨σ, hσ⟩ := h
  unfold cliqueCount
  have e : (fun i j : Fin v => decide (ent m' i j = 1)) =
      (fun i j : Fin v => (fun i j : Fin v => decide (ent m i j = 1)) (σ i) (σ j)) := by
    funext i j
    rw [hσ]
  rw [e, ← cliques_map (fun i j : Fin v => decide (ent m i j = 1)) σ]
  apply cliques_perm
  rw [List.perm_ext_iff_of_nodup (List.nodup_finRange v)
    ((List.nodup_map_iff σ.injective).2 (List.nodup_finRange v))]
  intro a
  simp only [List.mem_finRange, List.mem_map, true_and, true_iff]
  exact ⟨σ.symm a, by simp⟩

/-- The same number from the rows as binary numbers. -/
def bitCliques (v : Nat) (rows : List Nat) (r : Nat) : Nat :=
  cliques (fun i j => (rows.getD i 0).testBit (v - 1 - j)) r (List.range v)

theorem cliqueCount_bitMat {v : Nat} {rows : List Nat} (h : rows.length = v) (r : Nat) :
    cliqueCount v (bitMat v rows) r = bitCliques v rows r := by
  unfold cliqueCount bitCliques
  have e : (fun i j : Fin v => decide (ent (bitMat v rows) i j = 1)) =
      (fun i j : Fin v => (rows.getD i 0).testBit (v - 1 - j)) := by
    funext i j
    rw [bitMat_ent h i.2 j.2]
    cases (rows.getD i 0).testBit (v - 1 - j) <;> simp
  rw [e, ← cliques_map (fun i j => (rows.getD i 0).testBit (v - 1 - j)) Fin.val,
    List.map_coe_finRange_eq_range]

theorem not_relabels {v r : Nat} {rows rows' : List Nat} (h : rows.length = v)
    (h' : rows'.length = v) (hc : bitCliques v rows r ≠ bitCliques v rows' r) :
    ¬ Relabels v (bitMat v rows) (bitMat v rows') := by
  intro hr
  apply hc
  rw [← cliqueCount_bitMat h, ← cliqueCount_bitMat h', cliqueCount_relabel hr]

/-! ### Classification -/

/-- Every list of rows in `L` is relabelled to a member of `R`, as said by `c`. -/
def relabelled (v : Nat) (R : List (List Nat)) : List (List Nat) → List (Nat × List Nat) → Bool
  | [], _ => true
  | _ :: _, [] => false
  | r :: L, (n, p) :: c =>
    match R[n]? with
    | none => false
    | some r' => sameBits v r r' p && relabelled v R L c

theorem relabelled_spec {v : Nat} {R : List (List Nat)} : ∀ {L : List (List Nat)}
    {c : List (Nat × List Nat)}, relabelled v R L c = true →
    ∀ r ∈ L, ∃ r' ∈ R, ∃ p, sameBits v r r' p = true
  | [], _, _, _, hr => absurd hr (by simp)
  | _ :: _, [], h, _, _ => by cases h
  | r :: L, (n, p) :: c, h, s, hs => by
    unfold relabelled at h
    cases e : R[n]? with
    | none => rw [e] at h; cases h
    | some r' =>
      rw [e] at h
      simp only [Bool.and_eq_true] at h
      rcases List.mem_cons.1 hs with rfl | hs
      · exact ⟨r', List.mem_of_getElem? e, p, h.1⟩
      · exact relabelled_spec h.2 s hs

theorem relabelled_append {v : Nat} {R : List (List Nat)} {L' : List (List Nat)}
    {c' : List (Nat × List Nat)} (h' : relabelled v R L' c' = true) : ∀ {L : List (List Nat)}
    {c : List (Nat × List Nat)}, L.length = c.length → relabelled v R L c = true →
    relabelled v R (L ++ L') (c ++ c') = true
  | [], [], _, _ => h'
  | [], _ :: _, h, _ => by simp at h
  | _ :: _, [], h, _ => by simp at h
  | r :: L, (n, p) :: c, hl, h => by
    unfold relabelled at h
    rw [List.cons_append, List.cons_append, relabelled]
    cases e : R[n]? with
    | none => rw [e] at h; cases h
    | some r' =>
      rw [e] at h
      simp only [Bool.and_eq_true] at h ⊢
      exact ⟨h.1, relabelled_append h' (by simpa using hl) h.2⟩

theorem pairwise_cliques {v r : Nat} {R : List (List Nat)}
    (h : (R.map (fun rows => bitCliques v rows r)).Nodup) :
    R.Pairwise (fun a b => ∃ r, bitCliques v a r ≠ bitCliques v b r) := by
  unfold List.Nodup at h
  rw [List.pairwise_map] at h
  exact h.imp (fun h => ⟨r, h⟩)

theorem Classified.of.{w} {v k l u : Nat} {L R : List (List Nat)} {c : List (Nat × List Nat)}
    (hc : Complete.{w} v k l u (L.map (bitMat v)))
    (hs : ∀ m ∈ L.map (bitMat v), IsSRG v k l u m) (hR : ∀ r ∈ R, r ∈ L)
    (hp : relabelled v R L c = true)
    (hn : R.Pairwise (fun a b => ∃ r, bitCliques v a r ≠ bitCliques v b r)) :
    Classified.{w} v k l u R.length := by
  have hlen : ∀ r ∈ L, r.length = v := by
    intro r hr
    have := (hs _ (List.mem_map_of_mem hr)).adj.square
    unfold bitMat at this
    rwa [List.length_map] at this
  refine ⟨R.map (bitMat v), by simp, ?_, ?_, ?_⟩
  · intro m hm
    obtain ⟨r, hr, rfl⟩ := List.mem_map.1 hm
    exact hs _ (List.mem_map_of_mem (hR r hr))
  · rw [List.pairwise_map]
    refine hn.imp_of_mem ?_
    rintro a b ha hb ⟨r, hne⟩
    exact not_relabels (hlen a (hR a ha)) (hlen b (hR b hb)) hne
  · refine Complete.relabel hc ?_
    intro m hm
    obtain ⟨a, ha, rfl⟩ := List.mem_map.1 hm
    obtain ⟨b, hb, p, hp⟩ := relabelled_spec hp a ha
    exact ⟨_, List.mem_map_of_mem hb, relabels_of_sameBits (hlen a ha) (hlen b (hR b hb)) hp⟩

end TDS
