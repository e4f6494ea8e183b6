import Verif.Props.Steps
import Verif.Proof.Sound

/-! C19, C20, C32, C34–C36: the leaf modules, the seed and answers. -/

namespace TDS

/-! ### C19 -/

/-- Tuples within bounds with a given sum. -/
def _root_.Spec.Composition (s : Int) (bounds t : Spec.Row) : Prop :=
  t.length = bounds.length ∧ (∀ i < t.length, 0 ≤ t.getD i 0 ∧ t.getD i 0 ≤ bounds.getD i 0) ∧
    t.sum = s

theorem composition_cons {s b a : Int} {bs t : Vec} :
    Spec.Composition s (b :: bs) (a :: t) ↔
      0 ≤ a ∧ a ≤ b ∧ Spec.Composition (s - a) bs t := by
  unfold Spec.Composition
  constructor
  · rintro ⟨h1, h2, h3⟩
    have h0 := h2 0 (by simp)
    simp only [List.getD_cons_zero] at h0
    refine ⟨h0.1, h0.2, by simpa using h1, ?_, by rw [List.sum_cons] at h3; omega⟩
    intro i hi
    have := h2 (i + 1) (by simp; omega)
    simpa using this
  · rintro ⟨h0, h0', h1, h2, h3⟩
    refine ⟨by simpa using h1, ?_, by rw [List.sum_cons]; omega⟩
    intro i hi
    cases i with
    | zero => simpa using ⟨h0, h0'⟩
    | succ i =>
      have := h2 i (by simp at hi; omega)
      simpa using this

theorem composition_nonneg {s : Int} {bs t : Vec} (h : Spec.Composition s bs t) : 0 ≤ s := by
  rw [← h.2.2]
  apply List.sum_nonneg
  intro a ha
  obtain ⟨i, hi, rfl⟩ := List.getElem_of_mem ha
  have := (h.2.1 i hi).1
  rwa [List.getD_eq_getElem _ _ hi] at this

/-- **C19.**  `partition.enum` lists exactly the bounded compositions, in strictly increasing
lexicographic order (so each once). -/
theorem C19_enum (s : Int) (bounds : Vec) (hs : 0 ≤ s) (hne : bounds ≠ []) :
    ∃ ts, Partition.enum s bounds = .ok ts ∧ ts.Pairwise (· < ·) ∧
      ∀ t, t ∈ ts ↔ Spec.Composition s bounds t := by
  induction bounds generalizing s with
  | nil => exact absurd rfl hne
  | cons b bs ih =>
    cases bs with
    | nil =>
      refine ⟨if s ≤ b then [[s]] else [], ?_, ?_, ?_⟩
      · unfold Partition.enum
        rw [show decide (s ≥ 0) = true by simpa using hs]
        rfl
      · split <;> simp
      · intro t
        constructor
        · intro ht
          split at ht
          · rw [List.mem_singleton.1 ht, composition_cons]
            refine ⟨hs, by assumption, ?_⟩
            simp [Spec.Composition]
          · simp at ht
        · intro ht
          obtain ⟨a, t, rfl⟩ : ∃ a t', t = a :: t' := by
            have := ht.1
            cases t <;> simp at this ⊢
          rw [composition_cons] at ht
          obtain ⟨h1, h2, h3, -, h5⟩ := ht
          have : t = [] := by simpa using h3
          subst this
          simp at h5
          rw [if_pos (by omega), List.mem_singleton]
          congr 1; omega
    | cons b2 others =>
      have hall : ∀ v ∈ Fork.pyRange 0 (min b s + 1), ∃ ts,
          Partition.enum (s - v) (b2 :: others) = .ok ts ∧ ts.Pairwise (· < ·) ∧
            ∀ t, t ∈ ts ↔ Spec.Composition (s - v) (b2 :: others) t := by
        intro v hv
        rw [mem_pyRange] at hv
        exact ih (s - v) (by omega) (by simp)
      have hch : ∃ g : Int → List Vec, ∀ v ∈ Fork.pyRange 0 (min b s + 1),
          Partition.enum (s - v) (b2 :: others) = .ok (g v) ∧ (g v).Pairwise (· < ·) ∧
            ∀ t, t ∈ g v ↔ Spec.Composition (s - v) (b2 :: others) t := by
        classical
        refine ⟨fun v => if hv : v ∈ Fork.pyRange 0 (min b s + 1) then (hall v hv).choose else [],
          ?_⟩
        intro v hv
        simp only [dif_pos hv]
        exact (hall v hv).choose_spec
      obtain ⟨g, hg⟩ := hch
      refine ⟨((Fork.pyRange 0 (min b s + 1)).map (fun v => (g v).map (fun t => v :: t))).flatten,
        ?_, ?_, ?_⟩
      · unfold Partition.enum
        rw [show decide (s ≥ 0) = true by simpa using hs]
        simp only [pyAssert_true, ok_bind]
        rw [mapM_ok (g := fun v => (g v).map (fun t => v :: t))]
        · rfl
        · intro v hv
          rw [(hg v hv).1]
          rfl
      · rw [List.pairwise_flatten]
        constructor
        · intro l hl
          obtain ⟨v, hv, rfl⟩ := List.mem_map.1 hl
          rw [List.pairwise_map]
          refine (hg v hv).2.1.imp ?_
          intro a c h
          exact List.cons_lt_cons_iff.2 (Or.inr ⟨rfl, h⟩)
        · rw [List.pairwise_map]
          refine (pyRange_pairwise _ _).imp ?_
          intro v w hvw x hx y hy
          obtain ⟨x, -, rfl⟩ := List.mem_map.1 hx
          obtain ⟨y, -, rfl⟩ := List.mem_map.1 hy
          exact List.cons_lt_cons_iff.2 (Or.inl hvw)
      · intro t
        rw [List.mem_flatten]
        constructor
        · rintro ⟨l, hl, ht⟩
          obtain ⟨v, hv, rfl⟩ := List.mem_map.1 hl
          obtain ⟨t, ht', rfl⟩ := List.mem_map.1 ht
          rw [composition_cons]
          have hv' := mem_pyRange.1 hv
          exact ⟨hv'.1, by omega, ((hg v hv).2.2 t).1 ht'⟩
        · intro ht
          obtain ⟨a, t, rfl⟩ : ∃ a t', t = a :: t' := by
            have := ht.1
            cases t <;> simp at this ⊢
          rw [composition_cons] at ht
          have hn := composition_nonneg ht.2.2
          have ha : a ∈ Fork.pyRange 0 (min b s + 1) := by
            rw [mem_pyRange]; omega
          exact ⟨_, List.mem_map_of_mem ha, List.mem_map_of_mem (((hg a ha).2.2 t).2 ht.2.2)⟩

/-- `partition.enum` asserts on a negative sum and on an empty list of bounds. -/
theorem C19_asserts : (∀ s, Partition.enum s [] = .error .assertion) ∧
    ∀ s bounds, s < 0 → Partition.enum s bounds = .error .assertion := by
  refine ⟨fun s => by unfold Partition.enum; rfl, fun s bounds hs => ?_⟩
  have hd : decide (s ≥ 0) = false := by simpa using hs
  match bounds with
  | [] => unfold Partition.enum; rfl
  | [b] => unfold Partition.enum; rw [hd]; rfl
  | b :: b2 :: o => unfold Partition.enum; rw [hd]; rfl

example : Partition.enum 2 [1, -1, 2] = .ok [] ∧
    Partition.enum 2 [1, 1, 2] = .ok [[0, 0, 2], [0, 1, 1], [1, 0, 1], [1, 1, 0]] := by
  decide +kernel

/-! ### C20 -/

/-- **C20.**  `fork.enum` lists exactly the feasible splits, in increasing order. -/
theorem C20_enum (quota : Int) (bounds : Vec) (loc : Nat) (h : loc < bounds.length) :
    ∃ ps, Fork.enum quota bounds loc = .ok ps ∧ ps.Pairwise (fun p p' => p.1 < p'.1) ∧
      ∀ q r, (q, r) ∈ ps ↔ r = quota - q ∧ 0 ≤ q ∧ q ≤ bounds.getD loc 0 ∧
        r ≤ bounds.sum - bounds.getD loc 0 := by
  refine ⟨_, enum_ok h, ?_, ?_⟩
  · rw [List.pairwise_map]
    exact (pyRange_pairwise _ _).imp (fun h => h)
  · intro q r
    have hs := sum_npDelete (ids := [loc]) (l := bounds) (by simp) (by simpa using h)
    simp only [List.map_cons, List.map_nil, List.sum_cons, List.sum_nil, add_zero] at hs
    rw [List.mem_map]
    constructor
    · rintro ⟨q', hq', he⟩
      rw [mem_pyRange] at hq'
      rw [Prod.mk.injEq] at he
      obtain ⟨rfl, rfl⟩ := he
      omega
    · rintro ⟨rfl, h1, h2, h3⟩
      exact ⟨q, by rw [mem_pyRange]; omega, rfl⟩

example : Fork.enum 4 [2, 2, 2, 1] 3 = .ok [(0, 4), (1, 3)] ∧
    Fork.enum 3 [1, 1, 1] 0 = .ok [(1, 2)] := by decide +kernel

/-! ### C36 -/

theorem zip_mem_iff {A : Mat} {b : Vec} (hl : A.length = b.length) {P : Vec → Int → Prop} :
    (∀ p ∈ A.zip b, P p.1 p.2) ↔ ∀ r < A.length, P (A.getD r []) (b.getD r 0) := by
  constructor
  · intro h r hr
    have hm : (A[r], b[r]'(by omega)) ∈ A.zip b := by
      rw [List.mem_iff_getElem]
      exact ⟨r, by rw [List.length_zip]; omega, by simp⟩
    have := h _ hm
    rw [List.getD_eq_getElem _ _ hr, List.getD_eq_getElem _ _ (by omega)]
    exact this
  · intro h p hp
    obtain ⟨r, hr, rfl⟩ := List.getElem_of_mem hp
    rw [List.length_zip] at hr
    have := h r (by omega)
    rw [List.getD_eq_getElem _ _ (by omega), List.getD_eq_getElem _ _ (by omega)] at this
    rw [List.getElem_zip]
    exact this

section

variable {A : Mat} {b bounds : Vec} (hl : A.length = b.length)
  (hr : ∀ r ∈ A, r.length = bounds.length)

include hl hr

/-- **C36.**  Each new bound is the minimum of the old bound and of the right-hand sides of the
rows that use the column; `lower_upper_bound` is idempotent and excludes no nonnegative
solution. -/
theorem C36_bounds :
    (Bounds.lowerUpperBound A b bounds).length = bounds.length ∧
    (∀ c, (Bounds.lowerUpperBound A b bounds).getD c 0 ≤ bounds.getD c 0 ∧
      (∀ r < A.length, Spec.ent A r c ≠ 0 →
        (Bounds.lowerUpperBound A b bounds).getD c 0 ≤ b.getD r 0) ∧
      ((Bounds.lowerUpperBound A b bounds).getD c 0 = bounds.getD c 0 ∨
        ∃ r < A.length, Spec.ent A r c ≠ 0 ∧
          (Bounds.lowerUpperBound A b bounds).getD c 0 = b.getD r 0)) ∧
    Bounds.lowerUpperBound A b (Bounds.lowerUpperBound A b bounds) =
      Bounds.lowerUpperBound A b bounds ∧
    ((∀ r ∈ A, Spec.Bin r) → ∀ x : Vec, x.length = bounds.length → (∀ a ∈ x, 0 ≤ a) →
      Spec.Solves A b x → (∀ c < x.length, x.getD c 0 ≤ bounds.getD c 0) →
      ∀ c < x.length, x.getD c 0 ≤ (Bounds.lowerUpperBound A b bounds).getD c 0) := by
  have hS : ∀ p ∈ A.zip b, p.1.length = bounds.length := fun p hp =>
    hr _ (List.of_mem_zip hp).1
  simp only [Bounds.lowerUpperBound_eq]
  refine ⟨Bounds.lub_length hS, ?_, Bounds.lub_idem hS, ?_⟩
  · intro c
    rw [Bounds.lub_getD hS c]
    have h1 := Bounds.lub1_le (A.zip b) c (bounds.getD c 0)
    refine ⟨h1.1, ?_, ?_⟩
    · exact (zip_mem_iff (P := fun row u => row.getD c 0 ≠ 0 →
        Bounds.lub1 (A.zip b) c (bounds.getD c 0) ≤ u) hl).1 h1.2
    · rcases Bounds.lub1_attained (A.zip b) c (bounds.getD c 0) with h2 | ⟨p, hp, h2, h3⟩
      · exact Or.inl h2
      · right
        obtain ⟨r, hr', rfl⟩ := List.getElem_of_mem hp
        have hr2 : r < A.length := by
          rw [List.length_zip] at hr'; exact lt_of_lt_of_le hr' (Nat.min_le_left _ _)
        rw [List.getElem_zip] at h2 h3
        refine ⟨r, hr2, ?_, ?_⟩
        · unfold Spec.ent
          rw [List.getD_eq_getElem _ _ hr2]; exact h2
        · rw [h3]
          exact (List.getD_eq_getElem _ _ (hl ▸ hr2)).symm
  · intro hb x hx hnn hsol hle
    rw [solves_iff (fun r h => by rw [hr r h, hx]) hl] at hsol
    have hbd : List.Forall₂ (fun a b => 0 ≤ a ∧ a ≤ b) x bounds := by
      refine Bounds.forall₂_of_getD 0 hx ?_
      intro j hj
      refine ⟨hnn _ ?_, hle j hj⟩
      rw [List.getD_eq_getElem _ _ hj]; exact List.getElem_mem _
    have := Bounds.lub_keeps hS (fun p hp => hb _ (List.of_mem_zip hp).1) hbd
      (fun p hp => (hsol p hp).le)
    intro c hc
    exact (Bounds.getD_of_forall₂ 0 this hc).2

omit hl in
/-- **C36**, row order: any joint rearrangement of the equations gives the same bounds. -/
theorem C36_row_order {A' : Mat} {b' : Vec}
    (hp : List.Perm (A'.zip b') (A.zip b)) :
    Bounds.lowerUpperBound A' b' bounds = Bounds.lowerUpperBound A b bounds := by
  have hS : ∀ p ∈ A.zip b, p.1.length = bounds.length := fun p hp =>
    hr _ (List.of_mem_zip hp).1
  have hS' : ∀ p ∈ A'.zip b', p.1.length = bounds.length := fun p h => hS p (hp.mem_iff.1 h)
  simp only [Bounds.lowerUpperBound_eq]
  apply Bounds.ext_getD (by rw [Bounds.lub_length hS, Bounds.lub_length hS'])
  intro c
  rw [Bounds.lub_getD hS c, Bounds.lub_getD hS' c]
  have h1 := Bounds.lub1_le (A.zip b) c (bounds.getD c 0)
  have h2 := Bounds.lub1_le (A'.zip b') c (bounds.getD c 0)
  apply le_antisymm
  · rcases Bounds.lub1_attained (A.zip b) c (bounds.getD c 0) with h | ⟨p, hp', h3, h4⟩
    · rw [h]; exact h2.1
    · rw [h4]; exact h2.2 p (hp.mem_iff.2 hp') h3
  · rcases Bounds.lub1_attained (A'.zip b') c (bounds.getD c 0) with h | ⟨p, hp', h3, h4⟩
    · rw [h]; exact h1.1
    · rw [h4]; exact h1.2 p (hp.mem_iff.1 hp') h3

end

example : Bounds.lowerUpperBound [[1, 1, 0], [0, 1, 1]] [0, 2] [1, 2, 4] = [0, 0, 2] := by
  decide +kernel

/-! ### C32 -/

/-- **C32.**  The seed realises its parameters. -/
theorem C32_seed {v : Nat} {k l u : Int} (hl : 0 ≤ l) (hlk : l < k) (hroom : 2 * k - l ≤ v)
    (hkv : k + 1 < v) (hl127 : l ≤ 127)
    (hcount : ((v : Int) - k - 1) * u = k * (k - l - 1)) :
    ∃ r0 r1, seed v k l u = .ok [r0, r1] ∧ Spec.Part v [r0, r1] ∧ r0.sum = k ∧ r1.sum = k ∧
      Spec.meet r0 r1 = l ∧ Spec.SymPart [r0, r1] ∧ vklu [r0, r1] = .ok ((v : Int), k, l, u) := by
  have hv : 2 ≤ v := by omega
  have h0 := seed0_sum (v := v) (k := k) (by omega) (by omega)
  have hm := seed_meet hl hlk (by omega) hroom
  refine ⟨seed0 v k, seed1 v k l, seed_eq hv k l u, seed_part hv k l, h0,
    seed1_sum hl hlk (by omega) hroom, hm, seed_sym hv (Or.inl ⟨hl, hlk⟩), ?_⟩
  have hs1 : (seed1 v k l).length = v := (seed_part hv k l).rect _ (by simp)
  have hnc : ncols [seed0 v k, seed1 v k l] = v := seed0_length v k
  have hL : lOf [seed0 v k, seed1 v k l] = l := by
    unfold lOf
    simp only [List.getD_cons_zero, List.getD_cons_succ]
    rw [← meet_eq_dot (by rw [seed0_length, hs1]), hm]
    exact i8_of_range (by omega) (by omega)
  have hK : kOf [seed0 v k, seed1 v k l] = k := h0
  have hU : uOf [seed0 v k, seed1 v k l] = u := by
    unfold uOf
    rw [hK, hL, hnc, ← hcount, Int.mul_comm]
    exact Int.mul_fdiv_cancel _ (by omega)
  rw [vklu_eq (by simp), hK, hL, hU, hnc]

example : seed 10 3 0 1 = .ok [[0, 1, 1, 1, 0, 0, 0, 0, 0, 0], [1, 0, 0, 0, 1, 1, 0, 0, 0, 0]] ∧
    (seed 10 3 0 1 >>= vklu) = .ok (10, 3, 0, 1) := by decide +kernel

/-! ### C34, C35 -/

/-- Locations that start at 0, increase and stay below the length. -/
structure _root_.Spec.Layout (loc : Spec.Row) (len : Int) : Prop where
  inc : loc.Pairwise (· < ·)
  start : ∀ a ∈ loc.head?, a = 0
  last : ∀ a ∈ loc, a < len
  ne : loc = [] → len = 0

theorem lay_of_layout {loc : Vec} {len : Int} (h : Spec.Layout loc len) :
    Lay (npDiff (loc ++ [len])) loc len := by
  have hnn : ∀ a ∈ loc, 0 ≤ a := by
    cases loc with
    | nil => simp
    | cons a t =>
      have h0 : a = 0 := h.start a (by simp)
      have := List.pairwise_cons.1 h.inc
      intro b hb
      rcases List.mem_cons.1 hb with rfl | hb
      · omega
      · have := this.1 b hb; omega
  have hl0 : 0 ≤ len := by
    cases loc with
    | nil => rw [h.ne rfl]
    | cons a t => have := h.last a (by simp); have := hnn a (by simp); omega
  have e1 : (loc.map Int.toNat).map (fun (i : Nat) => (i : Int)) = loc := by
    rw [List.map_map]
    conv_rhs => rw [← List.map_id loc]
    apply List.map_congr_left
    intro a ha
    have := hnn a ha
    simp only [Function.comp, id]; omega
  have e2 : ((len.toNat : Nat) : Int) = len := by omega
  have := lay_of_heads (loc.map Int.toNat) len.toNat (by
      rw [List.pairwise_map]
      refine h.inc.imp_of_mem ?_
      intro a b ha hb hab
      have := hnn a ha; have := hnn b hb; omega) (by
      intro x hx
      obtain ⟨a, ha, rfl⟩ := List.mem_map.1 hx
      have := h.last a ha; have := hnn a ha; omega) (by
      intro hn
      cases loc with
      | nil => have := h.ne rfl; omega
      | cons a t =>
        have h0 : a = 0 := h.start a (by simp)
        simp [h0])
  rw [e1, e2] at this
  exact this

theorem binz_getD {W y : Vec} (h : Within y W) : ∀ i < W.length, ∀ t : Nat,
    (t : Int) < W.getD i 0 →
    (binz W y).getD ((W.take i).sum.toNat + t) 0 = if (t : Int) < y.getD i 0 then 1 else 0 := by
  induction h with
  | nil => intro i hi; simp at hi
  | @cons a w y W haw hrest ih =>
    intro i hi t ht
    rw [binz_cons]
    have hW0 : ∀ w ∈ W, 0 ≤ w := by
      intro w hw
      obtain ⟨n, hn, rfl⟩ := List.getElem_of_mem hw
      have := Bounds.getD_of_forall₂ 0 hrest (j := n) (by rw [hrest.length_eq]; exact hn)
      rw [List.getD_eq_getElem W _ hn] at this
      omega
    cases i with
    | zero =>
      simp only [List.take_zero, List.sum_nil, Int.toNat_zero, Nat.zero_add,
        List.getD_cons_zero] at ht ⊢
      by_cases hta : (t : Int) < a
      · rw [if_pos hta, List.getD_append _ _ _ _ (by simp; omega),
          List.getD_append _ _ _ _ (by simp; omega), List.getD_eq_getElem _ _ (by simp; omega),
          List.getElem_replicate]
      · rw [if_neg hta, List.getD_append _ _ _ _ (by simp; omega),
          List.getD_append_right _ _ _ _ (by simp; omega), List.getD_eq_getElem _ _ (by simp; omega),
          List.getElem_replicate]
    | succ i =>
      have hlen : (List.replicate a.toNat (1 : Int) ++ List.replicate (w - a).toNat 0).length =
          w.toNat := by simp; omega
      have hsum : 0 ≤ (W.take i).sum :=
        List.sum_nonneg (fun x hx => hW0 x (List.mem_of_mem_take hx))
      rw [List.take_succ_cons, List.sum_cons, List.getD_append_right _ _ _ _ (by rw [hlen]; omega),
        hlen, show (w + (W.take i).sum).toNat + t - w.toNat = (W.take i).sum.toNat + t by omega]
      rw [List.getD_cons_succ] at ht ⊢
      exact ih i (by simpa using hi) t ht

theorem npDiff_take_sum (l : Vec) (i : Nat) (hi : i < l.length) :
    ((npDiff l).take i).sum = l.getD i 0 - l.getD 0 0 := by
  induction l generalizing i with
  | nil => simp at hi
  | cons a t ih =>
    cases t with
    | nil => simp at hi; subst hi; simp [npDiff]
    | cons b t =>
      cases i with
      | zero => simp
      | succ i =>
        have := ih i (by simpa using hi)
        simp only [npDiff, List.take_succ_cons, List.sum_cons, List.getD_cons_succ,
          List.getD_cons_zero] at this ⊢
        omega

theorem layout_W {a : Answer} (h : Spec.Layout a.loc a.len) (hv : a.v.length = a.loc.length)
    (hfit : ∀ i < a.v.length, 0 ≤ a.v.getD i 0 ∧
      a.v.getD i 0 ≤ Spec.bucketEnd a.loc a.len i - a.loc.getD i 0) :
    Within a.v (npDiff (a.loc ++ [a.len])) := by
  have hL := lay_of_layout h
  refine Bounds.forall₂_of_getD 0 (by rw [hv, hL.wlen]) ?_
  intro i hi
  have := hfit i hi
  rw [width_eq hL (by rw [← hL.wlen, ← hv]; exact hi)] at this
  exact this

/-- **C34.**  `binarize` on a fully known answer with increasing locations and values within the
bucket widths: a 0/1 vector of the right length whose bucket `i` starts with `value[i]` ones and
continues with zeros. -/
theorem C34_binarize {a : Answer} (h : Spec.Layout a.loc a.len) (hv : a.v.length = a.loc.length)
    (hfit : ∀ i < a.v.length, 0 ≤ a.v.getD i 0 ∧
      a.v.getD i 0 ≤ Spec.bucketEnd a.loc a.len i - a.loc.getD i 0) :
    ∃ z, a.binarize = .ok z ∧ Spec.Bin z ∧ (z.length : Int) = a.len ∧
      ∀ i < a.v.length, ∀ t : Nat, a.loc.getD i 0 + t < Spec.bucketEnd a.loc a.len i →
        z.getD ((a.loc.getD i 0).toNat + t) 0 = if (t : Int) < a.v.getD i 0 then 1 else 0 := by
  have hL := lay_of_layout h
  have hW := layout_W h hv hfit
  refine ⟨_, binarize_eq hW hL, binz_bin hW, by rw [binz_length hW, hL.sum], ?_⟩
  intro i hi t ht
  have hiW : i < (npDiff (a.loc ++ [a.len])).length := by rw [← hL.wlen, ← hv]; exact hi
  have hw := width_eq hL hiW
  have h1 := binz_getD hW i hiW t (by omega)
  have h2 := npDiff_take_sum (a.loc ++ [a.len]) i (by simp; omega)
  have h3 : (a.loc ++ [a.len]).getD i 0 = a.loc.getD i 0 := by
    rw [List.getD_append _ _ _ _ (by omega)]
  have h4 : (a.loc ++ [a.len]).getD 0 0 = 0 := by
    cases hloc : a.loc with
    | nil => rw [hloc] at hv; simp at hv; rw [hv] at hi; simp at hi
    | cons x xs =>
      have := h.start x (by rw [hloc]; simp)
      simp [this]
  rw [h2, h3, h4, Int.sub_zero] at h1
  exact h1

/-- **C34**, injectivity: different values give different vectors. -/
theorem C34_injective {a a' : Answer} (h : Spec.Layout a.loc a.len) (hloc : a'.loc = a.loc)
    (hlen : a'.len = a.len) (hv : a.v.length = a.loc.length) (hv' : a'.v.length = a.loc.length)
    (hfit : ∀ i < a.v.length, 0 ≤ a.v.getD i 0 ∧
      a.v.getD i 0 ≤ Spec.bucketEnd a.loc a.len i - a.loc.getD i 0)
    (hfit' : ∀ i < a'.v.length, 0 ≤ a'.v.getD i 0 ∧
      a'.v.getD i 0 ≤ Spec.bucketEnd a.loc a.len i - a.loc.getD i 0)
    (he : a.binarize = a'.binarize) : a = a' := by
  have hL := lay_of_layout h
  have hW := layout_W h hv hfit
  have hW' := layout_W (a := a') (by rw [hloc, hlen]; exact h) (by rw [hloc]; exact hv')
    (by rw [hloc, hlen]; exact hfit')
  rw [hloc, hlen] at hW'
  rw [binarize_eq hW hL, binarize_eq hW' (by rw [hloc, hlen]; exact hL)] at he
  have := binz_injective hW hW' (by simpa using he)
  cases a; cases a'
  simp_all

example : (Answer.mk [1, 0, 2] [0, 2, 3] 6).binarize = .ok [1, 0, 0, 1, 1, 0] ∧
    Spec.Layout [0, 2, 3] 6 :=
  ⟨by decide +kernel, by decide, by simp, by decide, by simp⟩

/-- **C35.**  The bucket widths of every answer the constructor accepts sum to its length, unless
there are no buckets; then `quota` asserts unless the length is 0. -/
theorem C35_widths {value loc : Vec} {len : Int} {a : Answer}
    (h : Answer.mk' value loc len = .ok a) :
    (loc ≠ [] → ∃ w, a.quota = .ok w ∧ w.sum = len ∧ w.length = loc.length ∧
      ∀ i < loc.length, w.getD i 0 = Spec.bucketEnd loc len i - loc.getD i 0) ∧
    (loc = [] → a.quota = if len = 0 then .ok [] else .error .assertion) := by
  have ha : a = ⟨value, loc, len⟩ ∧ (loc ≠ [] → loc.headD 0 = 0) := by
    unfold Answer.mk' at h
    rw [bind_eq_ok] at h
    obtain ⟨-, -, h⟩ := h
    by_cases hne : loc.length > 0
    · rw [if_pos hne] at h
      by_cases hc : (loc.headD 0 == 0) = true
      · refine ⟨?_, fun _ => by simpa using hc⟩
        rw [hc] at h
        simp only [pyAssert_true, ok_bind, bind_eq_ok] at h
        obtain ⟨-, -, -, -, h⟩ := h
        cases h; rfl
      · rw [Bool.not_eq_true] at hc
        rw [hc] at h
        simp at h
    · rw [if_neg hne] at h
      refine ⟨by cases h; rfl, fun hl => absurd (List.length_pos_iff.2 hl) hne⟩
  obtain ⟨rfl, h0⟩ := ha
  constructor
  · intro hne
    have hd : ∀ l : Vec, (npDiff l).length = l.length - 1 := by
      intro l
      induction l with
      | nil => rfl
      | cons x t ih =>
        cases t with
        | nil => rfl
        | cons y t => simp [npDiff] at ih ⊢; omega
    have hs : (npDiff (loc ++ [len])).sum = len := by
      have := npDiff_take_sum (loc ++ [len]) loc.length (by simp)
      rw [List.take_of_length_le (by rw [hd]; simp)] at this
      rw [this]
      have e1 : (loc ++ [len]).getD loc.length 0 = len := by
        rw [List.getD_append_right _ _ _ _ (Nat.le_refl _)]; simp
      have e2 : (loc ++ [len]).getD 0 0 = 0 := by
        have := h0 hne
        cases loc with
        | nil => exact absurd rfl hne
        | cons x t => simpa using this
      omega
    refine ⟨npDiff (loc ++ [len]), ?_, hs, by rw [hd]; simp, ?_⟩
    · unfold Answer.quota
      simp only [hs, beq_self_eq_true, pyAssert_true, ok_bind]
    · intro i hi
      rw [npDiff_getD _ _ (by simp; omega)]
      unfold Spec.bucketEnd
      congr 1
      rw [List.getD_append _ _ _ _ hi]
  · intro hl
    subst hl
    unfold Answer.quota
    by_cases hlen : len = 0
    · subst hlen; rfl
    · rw [if_neg hlen]
      have : ((npDiff (([] : Vec) ++ [len])).sum == len) = false := by
        simp [npDiff]; omega
      simp only [this, pyAssert_false, error_bind]

/-- **C35**, solver: every answer inside `solve_question` has positive widths. -/
theorem C35_solver {v : Nat} {m : Mat} {Q₀ Q : Question} (hm : Spec.Part v m)
    (h2 : 2 ≤ m.length) (hlt : m.length < v) (hv : v ≤ 66) (h₀ : fromMatrix m = .ok Q₀)
    (hr : Reach Q₀ Q) : ∃ w, Q.ans.quota = .ok w ∧ (∀ x ∈ w, 0 < x) ∧ w.sum = Q.ans.len ∧
      w.length = Q.ans.v.length := by
  have hinv := hr.inv (pre_of_fromMatrix hm h2 hlt hv h₀).1
  exact ⟨_, hinv.lay.quota, hinv.lay.pos, hinv.lay.sum, hinv.vlen.symm⟩

/-- **C35**, refuted part: the constructor accepts decreasing locations, which have a negative
width. -/
theorem C35_sorted_not_checked :
    Answer.mk' [0, 0, 0] [0, 2, 1] 3 = .ok ⟨[0, 0, 0], [0, 2, 1], 3⟩ ∧
      (Answer.mk [0, 0, 0] [0, 2, 1] 3).quota = .ok [2, -1, 2] := by decide +kernel

end TDS
