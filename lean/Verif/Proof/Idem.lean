import Verif.Proof.Maximize
import Verif.SpecG

/-! Matrices that `maximize` leaves alone. -/

namespace TDS

namespace Sorter

/-- Position of the first zero of row `row` in the window `c0..c1`. -/
def firstZero (S : Mat) (row c0 c1 : Nat) : Option Nat :=
  (npWhere (fun x => x == 0) (slice S row c0 c1)).head?.map (· + c0)

/-- Row `row` decreases on the window `c0..c1`. -/
def Down (M : Mat) (row c0 c1 : Nat) : Prop :=
  ∀ j j', c0 ≤ j → j < j' → j' < c1 → Spec.ent M row j' ≤ Spec.ent M row j

theorem slice_congr {v : Nat} {M N : Mat} (hM : Spec.Square v M) (hN : Spec.Square v N)
    {row c0 c1 : Nat} (hr : row < v) (hv : c1 ≤ v)
    (he : ∀ j, c0 ≤ j → j < c1 → Spec.ent N row j = Spec.ent M row j) :
    slice N row c0 c1 = slice M row c0 c1 := by
  have h1 := slice_length (c0 := c0) hM hr hv
  have h2 := slice_length (c0 := c0) hN hr hv
  apply List.ext_getElem (by omega)
  intro n a b
  rw [← List.getD_eq_getElem _ 0, ← List.getD_eq_getElem _ 0, slice_getD (by omega),
    slice_getD (by omega)]
  exact he _ (by omega) (by omega)

theorem permute_window_range {v : Nat} {M : Mat} (hs : Spec.Square v M) {c0 c1 : Nat}
    (hc : c0 ≤ c1) (hv : c1 ≤ v) : permute M (window v c0 c1 (List.range (c1 - c0))) = M := by
  have hl := window_length (i := List.range (c1 - c0)) hc hv (by simp)
  have hw := window_perm hc hv (List.Perm.refl (List.range (c1 - c0)))
  have hg : ∀ n < v, (window v c0 c1 (List.range (c1 - c0))).getD n 0 = n := by
    intro n hn
    rw [window_getD hc hv (by simp) n hn]
    split
    · rw [List.getD_eq_getElem _ _ (by simp; omega), List.getElem_range]; omega
    · rfl
  refine square_ext (permute_relabels (M := M) hw).1 hs (fun i hi j hj => ?_)
  rw [permute_ent (by omega) (by omega), hg i hi, hg j hj]

/-- `_sort` on a row that already decreases on the window. -/
theorem sortRow_keep {argsort : Vec → List Nat} (hk : Keeps argsort) {v : Nat} {M : Mat}
    (hs : Spec.Square v M) (hsym : Spec.Symmetric v M) {row c0 c1 : Nat} (hr : row < c0)
    (hc : c0 < c1) (hv : c1 ≤ v) (hd : Down M row c0 c1) :
    sortRow argsort M row c0 (some c1) = .ok (M, firstZero M row c0 c1) := by
  have hl := slice_length (c0 := c0) hs (show row < v by omega) hv
  have ha : argsort ((slice M row c0 c1).map (fun x => -x)) = List.range (c1 - c0) := by
    rw [hk, List.length_map, hl]
    rw [List.pairwise_map, List.pairwise_iff_getElem]
    intro a b h1 h2 hab
    rw [← List.getD_eq_getElem _ 0, ← List.getD_eq_getElem _ 0, slice_getD (by omega),
      slice_getD (by omega)]
    have := hd (c0 + a) (c0 + b) (by omega) (by omega) (by omega)
    omega
  unfold sortRow
  rw [if_neg (by omega)]
  simp only [hs.rows]
  rw [if_neg (by omega), ha, permute_window_range hs hc.le hv]
  have hdec : decide (M = transpose M) = true := by simpa using (eq_transpose_iff hs).2 hsym
  rw [hdec]
  rfl

/-- The index returned by an effective `_sort` call. -/
theorem sortRow_index {argsort : Vec → List Nat} {M S : Mat} {row c0 c1 : Nat} {d : Option Nat}
    (hr : row < c0) (hc : c0 < c1) (h : sortRow argsort M row c0 (some c1) = .ok (S, d)) :
    d = firstZero S row c0 c1 := by
  unfold sortRow at h
  rw [if_neg (by omega)] at h
  simp only at h
  rw [if_neg (by omega), bind_eq_ok] at h
  obtain ⟨-, -, h⟩ := h
  simp only [Except.ok.injEq, Prod.mk.injEq] at h
  rw [← h.2, ← h.1]
  rfl

theorem sortRow_skip (argsort : Vec → List Nat) (M : Mat) {row c0 c1 : Nat}
    (h : ¬ (row < c0 ∧ c0 < c1)) : sortRow argsort M row c0 (some c1) = .ok (M, none) := by
  unfold sortRow
  by_cases hr : row ≥ c0
  · rw [if_pos hr]
  · rw [if_neg hr]
    simp only
    rw [if_pos (by omega)]

/-- The same `_sort` call on a matrix that shares the sorted part of the row. -/
theorem sortRow_again {argsort : Vec → List Nat} (ha : IsArgsort argsort) (hk : Keeps argsort)
    {v : Nat} {M S N : Mat} (hs : Spec.Square v M) (hsym : Spec.Symmetric v M) {row c0 c1 : Nat}
    (hv : c1 ≤ v) {d : Option Nat} (h : sortRow argsort M row c0 (some c1) = .ok (S, d))
    (hN : Spec.Square v N) (hNs : Spec.Symmetric v N)
    (he : ∀ j, c0 ≤ j → j < c1 → Spec.ent N row j = Spec.ent S row j) :
    sortRow argsort N row c0 (some c1) = .ok (N, d) := by
  by_cases hc : row < c0 ∧ c0 < c1
  · obtain ⟨g1, g2⟩ := hc
    obtain ⟨S', d', h1, h2⟩ := (sortRow_step ha hs g1 g2 hv).2 hsym
    rw [h] at h1
    simp only [Except.ok.injEq, Prod.mk.injEq] at h1
    obtain ⟨rfl, rfl⟩ := h1
    rw [sortRow_keep hk hN hNs g1 g2 hv, sortRow_index g1 g2 h]
    · unfold firstZero
      rw [slice_congr h2.square hN (by omega) hv he]
    · intro j j' a1 a2 a3
      rw [he j (by omega) (by omega), he j' (by omega) (by omega)]
      exact h2.sorted j j' a1 a2 a3
  · rw [sortRow_skip _ _ hc] at h ⊢
    simp only [Except.ok.injEq, Prod.mk.injEq] at h
    rw [h.2]

/-- One queue step: rows up to `si.row` stay, row `si.row + 1` stays outside the window, and any
matrix that shares the new row `si.row + 1` on the window is left alone by the same instruction. -/
theorem divSort_replay {argsort : Vec → List Nat} (ha : IsArgsort argsort) (hk : Keeps argsort)
    {v : Nat} {A M : Mat} {si : Instr} {q : List Instr} (h : QInv argsort v A M (si :: q))
    {M' : Mat} {sii : List Instr} (hd : divSort argsort M si = .ok (M', sii)) :
    (∀ i ≤ si.row, ∀ j < v, Spec.ent M' i j = Spec.ent M i j) ∧
    (∀ j < v, ¬ (si.c0 ≤ j ∧ j < si.c1) →
      Spec.ent M' (si.row + 1) j = Spec.ent M (si.row + 1) j) ∧
    (∀ x ∈ sii, x.row = si.row + 1) ∧
    ∀ N : Mat, Spec.Square v N → Spec.Symmetric v N →
      (∀ j, si.c0 ≤ j → j < si.c1 → Spec.ent N (si.row + 1) j = Spec.ent M' (si.row + 1) j) →
      divSort argsort N si = .ok (N, sii) := by
  obtain ⟨d, hi⟩ := h.items si (by simp)
  obtain ⟨r, c0, c1, di⟩ := si
  obtain ⟨hdi, hrow, hlo, hhi, htop, hones, hzeros, hconst⟩ := hi
  simp only at hdi hrow hlo hhi htop hones hzeros hconst
  subst hdi
  unfold divSort at hd
  simp only at hd
  set c0' := if r + 1 = c0 then c0 + 1 else c0 with hc0'
  have hb1 : r + 1 < c0' ∧ c0 ≤ c0' := by
    rw [hc0']; split <;> omega
  have hC1 : Const M (r + 1) c0' d := by
    intro i hi j j' a1 a2 a3 a4
    rcases Nat.lt_or_ge i r with h' | h'
    · exact hconst i h' j j' (by omega) (by omega) (by omega) (by omega)
    · have : i = r := by omega
      subst this
      rw [hones j (by omega) a2, hones j' (by omega) a4]
  have hC2 : Const M (r + 1) d c1 := by
    intro i hi j j' a1 a2 a3 a4
    rcases Nat.lt_or_ge i r with h' | h'
    · exact hconst i h' j j' (by omega) (by omega) (by omega) (by omega)
    · have : i = r := by omega
      subst this
      rw [hzeros j a1 a2, hzeros j' a3 a4]
  obtain ⟨M1, d1, hs1, hor1⟩ := sortRow_any ha h.square h.sym (r + 1) c0' d (by omega)
  have hm1 : Moves v M M1 (r + 1) c0' d := by
    rcases hor1 with ⟨rfl, -⟩ | ⟨g1, -, g3⟩
    · exact moves_refl _ _ _ _ _
    · exact g3.moves g1
  have hq1 : Spec.Square v M1 ∧ Spec.Relabels v M M1 := by
    rcases hor1 with ⟨rfl, -⟩ | ⟨-, -, g3⟩
    · exact ⟨h.square, relabels_refl _ _⟩
    · exact ⟨g3.square, g3.relabels⟩
  have hsym1 := symmetric_relabel hq1.2 h.sym
  obtain ⟨M2, d2, hs2, hor2⟩ := sortRow_any ha hq1.1 hsym1 (r + 1) d c1 htop
  have hm2 : Moves v M1 M2 (r + 1) d c1 := by
    rcases hor2 with ⟨rfl, -⟩ | ⟨g1, -, g3⟩
    · exact moves_refl _ _ _ _ _
    · exact g3.moves g1
  have hsq2 : Spec.Square v M2 := by
    rcases hor2 with ⟨rfl, -⟩ | ⟨-, -, g3⟩
    · exact hq1.1
    · exact g3.square
  have low1 : ∀ i ≤ r, ∀ j < v, Spec.ent M1 i j = Spec.ent M i j := fun i hi j hj =>
    hm1.low hC1 (by omega) (by omega) (by omega) hj
  have hC2' : Const M1 (r + 1) d c1 := by
    intro i hi j j' a1 a2 a3 a4
    rw [low1 i (by omega) j (by omega), low1 i (by omega) j' (by omega)]
    exact hC2 i hi j j' a1 a2 a3 a4
  have low2 : ∀ i ≤ r, ∀ j < v, Spec.ent M2 i j = Spec.ent M1 i j := fun i hi j hj =>
    hm2.low hC2' (by omega) (by omega) (by omega) hj
  rw [hs1, ok_bind] at hd
  simp only at hd
  rw [hs2, ok_bind] at hd
  simp only [Except.ok.injEq, Prod.mk.injEq] at hd
  obtain ⟨rfl, hsii⟩ := hd
  refine ⟨fun i hi j hj => ?_, fun j hj hn => ?_, ?_, fun N hN hNs he => ?_⟩
  · rw [low2 i hi j hj, low1 i hi j hj]
  · simp only at hn ⊢
    rw [hm2.fixed (Nat.le_refl _) (by omega) hj (by omega),
      hm1.fixed (Nat.le_refl _) (by omega) hj (by omega)]
  · intro x hx
    rw [← hsii] at hx
    rcases List.mem_append.1 hx with hx | hx
    · cases d1 with
      | none => simp at hx
      | some y => simp only at hx; split at hx <;> simp_all
    · cases d2 with
      | none => simp at hx
      | some y => simp only at hx; split at hx <;> simp_all
  · simp only at he
    have e1 : sortRow argsort N (r + 1) c0' (some d) = .ok (N, d1) := by
      refine sortRow_again ha hk h.square h.sym (by omega) hs1 hN hNs (fun j a b => ?_)
      rw [he j (by omega) (by omega), hm2.fixed (Nat.le_refl _) (by omega) (by omega) (by omega)]
    have e2 : sortRow argsort N (r + 1) d (some c1) = .ok (N, d2) :=
      sortRow_again ha hk hq1.1 hsym1 htop hs2 hN hNs (fun j a b => he j (by omega) b)
    unfold divSort
    simp only
    rw [← hc0', e1, ok_bind]
    simp only
    rw [e2, ok_bind, hsii]

/-- Entries that later queue steps cannot change. -/
theorem sortLoop_fixed {argsort : Vec → List Nat} (ha : IsArgsort argsort) (hk : Keeps argsort)
    {v : Nat} {A : Mat} (n : Nat) : ∀ (M : Mat) (q : List Instr) (M' : Mat),
      QInv argsort v A M q → sortLoop argsort n M q = .ok M' → ∀ i x0 x1, x1 ≤ v →
      (∀ x ∈ q, i ≤ x.row ∨ (i = x.row + 1 ∧ (x.c1 ≤ x0 ∨ x1 ≤ x.c0))) →
      ∀ j, x0 ≤ j → j < x1 → Spec.ent M' i j = Spec.ent M i j := by
  induction n with
  | zero =>
    intro M q M' h hr i x0 x1 hx hq j a b
    cases q with
    | nil => simp only [sortLoop, Except.ok.injEq] at hr; rw [hr]
    | cons si q => simp [sortLoop] at hr
  | succ n ih =>
    intro M q M' h hr i x0 x1 hx hq j a b
    cases q with
    | nil => simp only [sortLoop, Except.ok.injEq] at hr; rw [hr]
    | cons si q =>
      obtain ⟨M1, sii, h1, h2, -⟩ := divSort_step ha h
      obtain ⟨f1, f2, f3, -⟩ := divSort_replay ha hk h h1
      unfold sortLoop at hr
      rw [h1, ok_bind] at hr
      have hsi := hq si (by simp)
      rw [ih M1 _ M' h2 hr i x0 x1 hx ?_ j a b]
      · rcases hsi with h' | ⟨rfl, h'⟩
        · exact f1 i h' j (by omega)
        · exact f2 j (by omega) (by omega)
      · intro x hx'
        rcases List.mem_append.1 hx' with hx' | hx'
        · exact hq x (List.mem_cons_of_mem _ hx')
        · left
          rw [f3 x hx']
          omega

/-- The result of the queue loop is left alone by the same queue. -/
theorem sortLoop_again {argsort : Vec → List Nat} (ha : IsArgsort argsort) (hk : Keeps argsort)
    {v : Nat} {A : Mat} (n : Nat) : ∀ (M : Mat) (q : List Instr) (M' : Mat),
      QInv argsort v A M q → sortLoop argsort n M q = .ok M' → Spec.Square v M' →
      Spec.Symmetric v M' → sortLoop argsort n M' q = .ok M' := by
  induction n with
  | zero =>
    intro M q M' h hr _ _
    cases q with
    | nil => rfl
    | cons si q => simp [sortLoop] at hr
  | succ n ih =>
    intro M q M' h hr hs hsym
    cases q with
    | nil => rfl
    | cons si q =>
      obtain ⟨M1, sii, h1, h2, -⟩ := divSort_step ha h
      obtain ⟨-, -, f3, f4⟩ := divSort_replay ha hk h h1
      obtain ⟨d, hd⟩ := h.items si (by simp)
      unfold sortLoop at hr ⊢
      rw [h1, ok_bind] at hr
      rw [f4 M' hs hsym ?_, ok_bind]
      · exact ih M1 _ M' h2 hr hs hsym
      · refine sortLoop_fixed ha hk n M1 _ M' h2 hr _ _ _ hd.top ?_
        intro x hx
        rcases List.mem_append.1 hx with hx | hx
        · have a1 := (List.pairwise_cons.1 h.rows).1 x hx
          have a2 := (List.pairwise_cons.1 h.disj).1 x hx
          omega
        · left; rw [f3 x hx]

/-- A second `maximize` changes nothing. -/
theorem maximize_again {argsort : Vec → List Nat} (ha : IsArgsort argsort) (hk : Keeps argsort)
    {v : Nat} {A M : Mat} (hs : Spec.Square v A) (hsym : Spec.Symmetric v A)
    (hb : ∀ r ∈ A, Spec.Bin r) (hz : ∃ j, 1 ≤ j ∧ j < v ∧ Spec.ent A 0 j = 0)
    (h : maximize argsort A = .ok M) : maximize argsort M = .ok M := by
  obtain ⟨M', S, d, hM', h0, hinv, hloop, hfin⟩ := maximize_run ha hs hsym hb hz
  rw [hM'] at h
  simp only [Except.ok.injEq] at h
  subst h
  have h1 : sortRow argsort M' 0 1 (some v) = .ok (M', some d) := by
    refine sortRow_again ha hk hs hsym (Nat.le_refl v) h0 hfin.square hfin.sym (fun j a b => ?_)
    refine sortLoop_fixed ha hk _ S _ M' hinv hloop 0 1 v (Nat.le_refl v) ?_ j a b
    intro x hx
    left; omega
  unfold maximize
  simp only [hfin.square.rows]
  rw [h1, ok_bind]
  exact sortLoop_again ha hk _ S _ M' hinv hloop hfin.square hfin.sym

theorem down_of_justified {v : Nat} {M : Mat} (hs : Spec.Square v M) (hj : Spec.Justified v M)
    {row c0 c1 : Nat} (hr : row < c0) (hv : c1 ≤ v) (hc : Const M row c0 c1) :
    Down M row c0 c1 := by
  intro j j' a1 a2 a3
  refine hj row (by omega) j j' ?_ a2 (by omega) ?_
  · rw [List.length_take]; omega
  · intro r hr'
    obtain ⟨t, ht, rfl⟩ := List.mem_iff_getElem.1 hr'
    rw [List.length_take] at ht
    have := hc t (by omega) j j' a1 (by omega) (by omega) a3
    unfold Spec.ent at this
    rw [List.getD_eq_getElem M [] (by omega)] at this
    rw [List.getElem_take]
    exact this

theorem sortRow_just {argsort : Vec → List Nat} (hk : Keeps argsort) {v : Nat} {M : Mat}
    (hs : Spec.Square v M) (hsym : Spec.Symmetric v M) (hj : Spec.Justified v M)
    {row c0 c1 : Nat} (hv : c1 ≤ v) (hc : Const M row c0 c1) :
    ∃ d, sortRow argsort M row c0 (some c1) = .ok (M, d) := by
  by_cases h : row < c0 ∧ c0 < c1
  · exact ⟨_, sortRow_keep hk hs hsym h.1 h.2 hv (down_of_justified hs hj h.1 hv hc)⟩
  · exact ⟨_, sortRow_skip _ _ h⟩

theorem sortLoop_just {argsort : Vec → List Nat} (ha : IsArgsort argsort) (hk : Keeps argsort)
    {v : Nat} {A M : Mat} (hj : Spec.Justified v M) (n : Nat) : ∀ (q : List Instr) (M' : Mat),
      QInv argsort v A M q → sortLoop argsort n M q = .ok M' → M' = M := by
  induction n with
  | zero =>
    intro q M' h hr
    cases q with
    | nil => simp only [sortLoop, Except.ok.injEq] at hr; rw [hr]
    | cons si q => simp [sortLoop] at hr
  | succ n ih =>
    intro q M' h hr
    cases q with
    | nil => simp only [sortLoop, Except.ok.injEq] at hr; rw [hr]
    | cons si q =>
      obtain ⟨M1, sii, h1, h2, -⟩ := divSort_step ha h
      unfold sortLoop at hr
      rw [h1, ok_bind] at hr
      have : M1 = M := by
        obtain ⟨d, hi⟩ := h.items si (by simp)
        obtain ⟨r, c0, c1, di⟩ := si
        obtain ⟨hdi, hrow, hlo, hhi, htop, hones, hzeros, hconst⟩ := hi
        simp only at hdi hrow hlo hhi htop hones hzeros hconst
        subst hdi
        unfold divSort at h1
        simp only at h1
        set c0' := if r + 1 = c0 then c0 + 1 else c0 with hc0'
        have hb1 : r + 1 < c0' ∧ c0 ≤ c0' := by
          rw [hc0']; split <;> omega
        have hC1 : Const M (r + 1) c0' d := by
          intro i hi j j' a1 a2 a3 a4
          rcases Nat.lt_or_ge i r with h' | h'
          · exact hconst i h' j j' (by omega) (by omega) (by omega) (by omega)
          · have : i = r := by omega
            subst this
            rw [hones j (by omega) a2, hones j' (by omega) a4]
        have hC2 : Const M (r + 1) d c1 := by
          intro i hi j j' a1 a2 a3 a4
          rcases Nat.lt_or_ge i r with h' | h'
          · exact hconst i h' j j' (by omega) (by omega) (by omega) (by omega)
          · have : i = r := by omega
            subst this
            rw [hzeros j a1 a2, hzeros j' a3 a4]
        obtain ⟨d1, e1⟩ := sortRow_just hk h.square h.sym hj (show d ≤ v by omega) hC1
        obtain ⟨d2, e2⟩ := sortRow_just hk h.square h.sym hj htop hC2
        rw [e1, ok_bind] at h1
        simp only at h1
        rw [e2, ok_bind] at h1
        simp only [Except.ok.injEq, Prod.mk.injEq] at h1
        exact h1.1.symm
      subst this
      exact ih _ M' h2 hr

/-- `maximize` leaves a matrix alone whose rows are justified to the left. -/
theorem maximize_just {argsort : Vec → List Nat} (ha : IsArgsort argsort) (hk : Keeps argsort)
    {v : Nat} {A : Mat} (hs : Spec.Square v A) (hsym : Spec.Symmetric v A)
    (hb : ∀ r ∈ A, Spec.Bin r) (hz : ∃ j, 1 ≤ j ∧ j < v ∧ Spec.ent A 0 j = 0)
    (hj : Spec.Justified v A) : maximize argsort A = .ok A := by
  obtain ⟨M', S, d, hM', h0, hinv, hloop, hfin⟩ := maximize_run ha hs hsym hb hz
  obtain ⟨d', e⟩ := sortRow_just (row := 0) (c0 := 1) hk hs hsym hj (Nat.le_refl v)
    (fun i hi => absurd hi (by omega))
  rw [h0] at e
  simp only [Except.ok.injEq, Prod.mk.injEq] at e
  obtain ⟨rfl, -⟩ := e
  rw [hM', sortLoop_just ha hk hj _ _ M' hinv hloop]

end Sorter

end TDS
