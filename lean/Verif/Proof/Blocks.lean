import Verif.Props.Exact
import Verif.Props.Deficit
import Verif.Props.C01

/-! Partitions into blocks of equal size, numbered so that each block fills up from one end. -/

namespace TDS

open Finset

/-- An equivalence relation on the numbers below `v` all of whose classes have `t` elements. -/
structure Blocks (v t : Nat) (E : Nat → Nat → Prop) : Prop where
  refl : ∀ i < v, E i i
  symm : ∀ i < v, ∀ j < v, E i j → E j i
  trans : ∀ i < v, ∀ j < v, ∀ c < v, E i j → E j c → E i c
  size : ∀ i < v, ∀ [DecidablePred (E i)], ((range v).filter (E i)).card = t

/-- Among the numbers that agree above row `R`, those in the block of `R` come first in the order
`ord`. -/
def BlockFirst (v : Nat) (ord : Nat → Nat → Prop) (E : Nat → Nat → Prop) : Prop :=
  ∀ R i j, R < i → R < j → i < v → j < v → ord i j → (∀ r < R, (E r i ↔ E r j)) → E R j → E R i

theorem blocks_unique {v t : Nat} {ord : Nat → Nat → Prop} (tri : ∀ i j, i ≠ j → ord i j ∨ ord j i)
    {E E' : Nat → Nat → Prop} (h : Blocks v t E) (h' : Blocks v t E')
    (f : BlockFirst v ord E) (f' : BlockFirst v ord E') :
    ∀ R < v, ∀ j < v, (E R j ↔ E' R j) := by
  classical
  intro R
  induction R using Nat.strong_induction_on with
  | _ R ih =>
    intro hR
    by_cases hex : ∃ r < R, E r R
    · obtain ⟨r, hr, hE⟩ := hex
      have hrv : r < v := by omega
      have hE' : E' r R := (ih r hr hrv R hR).1 hE
      intro j hj
      constructor
      · intro hRj
        exact h'.trans R hR r hrv j hj (h'.symm r hrv R hR hE')
          ((ih r hr hrv j hj).1 (h.trans r hrv R hR j hj hE hRj))
      · intro hRj
        exact h.trans R hR r hrv j hj (h.symm r hrv R hR hE)
          ((ih r hr hrv j hj).2 (h'.trans r hrv R hR j hj hE' hRj))
    · push Not at hex
      have hex' : ∀ r < R, ¬ E' r R := fun r hr he => hex r hr ((ih r hr (by omega) R hR).2 he)
      -- members of the block of `R` come after `R` and agree above
      have mem : ∀ {F : Nat → Nat → Prop}, Blocks v t F → (∀ r < R, ¬ F r R) → ∀ j < v, F R j →
          R ≤ j ∧ ∀ r < R, ¬ F r j := by
        intro F hF hno j hj hRj
        constructor
        · by_contra hlt
          exact hno j (by omega) (hF.symm R hR j hj hRj)
        · intro r hr hrj
          exact hno r hr (hF.trans r (by omega) j hj R hR hrj (hF.symm R hR j hj hRj))
      have card : ((range v).filter (E R)).card = ((range v).filter (E' R)).card := by
        rw [h.size R hR, h'.size R hR]
      have key : ∀ {F F' : Nat → Nat → Prop}, Blocks v t F → Blocks v t F' →
          BlockFirst v ord F → BlockFirst v ord F' →
          (∀ r < R, ¬ F r R) → (∀ r < R, ¬ F' r R) → (∀ r < R, ∀ j < v, (F r j ↔ F' r j)) →
          ∀ a < v, ∀ b < v, F R a → ¬ F' R a → F' R b → ¬ F R b → False := by
        intro F F' hF hF' fF fF' hno hno' _ a ha b hb hFa hFa' hFb' hFb
        have h1 := mem hF hno a ha hFa
        have h2 := mem hF' hno' b hb hFb'
        rename_i same
        have haR : a ≠ R := fun e => hFa' (e ▸ hF'.refl R hR)
        have hbR : b ≠ R := fun e => hFb (e ▸ hF.refl R hR)
        have hab : a ≠ b := fun e => hFb (e ▸ hFa)
        rcases tri a b hab with o | o
        · refine hFa' (fF' R a b (by omega) (by omega) ha hb o (fun r hr => ?_) hFb')
          have := h1.2 r hr
          rw [same r hr a ha] at this
          exact ⟨fun x => absurd x this, fun x => absurd x (h2.2 r hr)⟩
        · refine hFb (fF R b a (by omega) (by omega) hb ha o (fun r hr => ?_) hFa)
          have := h2.2 r hr
          rw [← same r hr b hb] at this
          exact ⟨fun x => absurd x this, fun x => absurd x (h1.2 r hr)⟩
      have sub : ∀ a < v, ∀ b < v, E R a → ¬ E' R a → E' R b → ¬ E R b → False :=
        key h h' f f' hex hex' (fun r hr j hj => ih r hr (by omega) j hj)
      have heq : (range v).filter (E R) = (range v).filter (E' R) := by
        by_contra hne
        have h1 : ¬ (range v).filter (E R) ⊆ (range v).filter (E' R) :=
          fun hs => hne (Finset.eq_of_subset_of_card_le hs (le_of_eq card.symm))
        have h2 : ¬ (range v).filter (E' R) ⊆ (range v).filter (E R) :=
          fun hs => hne (Finset.eq_of_subset_of_card_le hs (le_of_eq card)).symm
        rw [Finset.not_subset] at h1 h2
        obtain ⟨a, ha1, ha2⟩ := h1
        obtain ⟨b, hb1, hb2⟩ := h2
        simp only [mem_filter, mem_range, not_and] at ha1 ha2 hb1 hb2
        exact sub a ha1.1 b hb1.1 ha1.2 (ha2 ha1.1) hb1.2 (hb2 hb1.1)
      intro j hj
      have := Finset.ext_iff.1 heq j
      simpa [mem_filter, hj] using this

/-- The size of the blocks divides the number of vertices. -/
theorem Blocks.dvd {v t : Nat} {E : Nat → Nat → Prop} (h : Blocks v t E) : t ∣ v := by
  classical
  let reps := (range v).filter (fun i => ∀ j < i, ¬ E j i)
  have hU : range v = reps.biUnion (fun i => (range v).filter (E i)) := by
    ext j
    simp only [mem_biUnion, mem_filter, mem_range, reps]
    constructor
    · intro hj
      have hex : ∃ i, i < v ∧ E i j := ⟨j, hj, h.refl j hj⟩
      have hs := Nat.find_spec hex
      refine ⟨Nat.find hex, ⟨hs.1, fun c hc hE => ?_⟩, hj, hs.2⟩
      exact Nat.find_min hex hc ⟨by omega, h.trans c (by omega) _ hs.1 j hj hE hs.2⟩
    · rintro ⟨i, -, hj, -⟩; exact hj
  have hd : Set.PairwiseDisjoint (reps : Set ℕ) (fun i => (range v).filter (E i)) := by
    intro a ha b hb hab
    simp only [reps, coe_filter, Set.mem_ofPred_eq, mem_range] at ha hb
    rw [Function.onFun, Finset.disjoint_left]
    intro c hc hc'
    simp only [mem_filter, mem_range] at hc hc'
    rcases Nat.lt_or_gt_of_ne hab with hlt | hlt
    · exact hb.2 a hlt (h.trans a ha.1 c hc.1 b hb.1 hc.2 (h.symm b hb.1 c hc.1 hc'.2))
    · exact ha.2 b hlt (h.trans b hb.1 c hc.1 a ha.1 hc'.2 (h.symm a ha.1 c hc.1 hc.2))
  have hc := congrArg Finset.card hU
  rw [card_range, Finset.card_biUnion hd] at hc
  have : ∑ i ∈ reps, ((range v).filter (E i)).card = ∑ _i ∈ reps, t := by
    refine Finset.sum_congr rfl (fun i hi => ?_)
    simp only [reps, mem_filter, mem_range] at hi
    exact h.size i hi.1
  rw [this, Finset.sum_const, smul_eq_mul] at hc
  exact ⟨reps.card, by rw [mul_comm]; exact hc⟩

section
variable {v : Nat} {k l u : Int} {M : Nat → Nat → Int} (h : Arr v k l u M)
include h

theorem Arr.card_one {i : Nat} (hi : i < v) :
    (((range v).filter (fun j => M i j = 1)).card : Int) = k := by
  rw [← h.deg i hi, Finset.card_filter]
  push_cast
  refine Finset.sum_congr rfl (fun j _ => ?_)
  rcases h.bin i j with e | e <;> simp [e]

/-- `u = k`: having no edge between is an equivalence with classes of `v - k` elements. -/
theorem Arr.blocks_multi (hu : u = k) (hk : 0 ≤ k) : Blocks v (v - k.toNat) (fun i j => M i j = 0) := by
  have row : ∀ i < v, ∀ j < v, M i j = 0 → ∀ c < v, M i c = M j c := by
    intro i hi j hj hij c hc
    by_cases e : i = j
    · rw [e]
    have h1 := h.inter i hi j hj e
    rw [if_neg (by rw [hij]; decide), hu] at h1
    have z1 : ∑ t ∈ range v, M i t * (1 - M j t) = 0 := by
      have : ∀ t ∈ range v, M i t * (1 - M j t) = M i t - M i t * M j t := by intros; ring
      rw [Finset.sum_congr rfl this, Finset.sum_sub_distrib, h.deg i hi, h1, sub_self]
    have z2 : ∑ t ∈ range v, M j t * (1 - M i t) = 0 := by
      have : ∀ t ∈ range v, M j t * (1 - M i t) = M j t - M i t * M j t := by intros; ring
      rw [Finset.sum_congr rfl this, Finset.sum_sub_distrib, h.deg j hj, h1, sub_self]
    have n1 : ∀ t ∈ range v, 0 ≤ M i t * (1 - M j t) := by
      intro t _
      rcases h.bin i t with a | a <;> rcases h.bin j t with b | b <;> rw [a, b] <;> decide
    have n2 : ∀ t ∈ range v, 0 ≤ M j t * (1 - M i t) := by
      intro t _
      rcases h.bin i t with a | a <;> rcases h.bin j t with b | b <;> rw [a, b] <;> decide
    have e1 := (Finset.sum_eq_zero_iff_of_nonneg n1).1 z1 c (mem_range.2 hc)
    have e2 := (Finset.sum_eq_zero_iff_of_nonneg n2).1 z2 c (mem_range.2 hc)
    rcases h.bin i c with a | a <;> rcases h.bin j c with b | b <;> rw [a, b] at e1 e2 ⊢ <;>
      simp at e1 e2
  constructor
  · exact h.diag
  · intro i hi j hj hij; rw [h.sym j hj i hi]; exact hij
  · intro i hi j hj c hc hij hjc
    rw [row i hi j hj hij c hc]; exact hjc
  · intro i hi _
    have h1 := h.card_one hi
    have h2 := Finset.card_filter_add_card_filter_not (s := range v) (fun j => M i j = 1)
    rw [card_range] at h2
    have h3 : (range v).filter (fun j => M i j = 0) = (range v).filter (fun j => ¬ M i j = 1) := by
      refine Finset.filter_congr (fun j _ => ?_)
      rcases h.bin i j with a | a <;> simp [a]
    have h4 : ((range v).filter (fun j => M i j = 0)).card = v - k.toNat := by
      rw [h3]; omega
    convert h4

/-- `u = 0`: being equal or joined is an equivalence with classes of `k + 1` elements. -/
theorem Arr.blocks_cliques (hu : u = 0) :
    Blocks v (k.toNat + 1) (fun i j => i = j ∨ M i j = 1) := by
  constructor
  · exact fun i _ => Or.inl rfl
  · rintro i hi j hj (e | e)
    · exact Or.inl e.symm
    · exact Or.inr (by rw [h.sym j hj i hi]; exact e)
  · rintro i hi j hj c hc (rfl | e) (rfl | e')
    · exact Or.inl rfl
    · exact Or.inr e'
    · exact Or.inr e
    · by_cases hic : i = c
      · exact Or.inl hic
      · refine Or.inr ?_
        by_contra hne
        have h1 := h.inter i hi c hc hic
        rw [if_neg hne, hu] at h1
        have n1 : ∀ t ∈ range v, 0 ≤ M i t * M c t := by
          intro t _
          rcases h.bin i t with a | a <;> rcases h.bin c t with b | b <;> rw [a, b] <;> decide
        have := (Finset.sum_eq_zero_iff_of_nonneg n1).1 h1 j (mem_range.2 hj)
        rw [e, h.sym c hc j hj, e'] at this
        simp at this
  · intro i hi _
    have h1 := h.card_one hi
    have h2 : (range v).filter (fun j => i = j ∨ M i j = 1) =
        insert i ((range v).filter (fun j => M i j = 1)) := by
      ext j
      simp only [mem_filter, mem_range, mem_insert]
      constructor
      · rintro ⟨a, rfl | b⟩
        · exact Or.inl rfl
        · exact Or.inr ⟨a, b⟩
      · rintro (rfl | ⟨a, b⟩)
        · exact ⟨hi, Or.inl rfl⟩
        · exact ⟨a, Or.inr b⟩
    have h3 : ((range v).filter (fun j => i = j ∨ M i j = 1)).card = k.toNat + 1 := by
      rw [h2, Finset.card_insert_of_notMem (by simp [h.diag i hi])]
      omega
    convert h3

end

/-- A justified matrix, entrywise. -/
theorem Justified.ent {v : Nat} {m : Mat} (h : Spec.Justified v m) {R i j : Nat}
    (hRi : R < i) (hij : i < j) (hj : j < v) (he : ∀ r < R, Spec.ent m r i = Spec.ent m r j) :
    Spec.ent m R j ≤ Spec.ent m R i := by
  have h1 := h R (by omega) i j (by rw [List.length_take]; omega) hij hj
  refine h1 ?_
  intro r hr
  obtain ⟨a, ha, rfl⟩ := List.getElem_of_mem hr
  rw [List.length_take] at ha
  rw [List.getElem_take]
  have := he a (by omega)
  unfold Spec.ent at this
  rwa [List.getD_eq_getElem (l := m) _ (by omega)] at this

end TDS
