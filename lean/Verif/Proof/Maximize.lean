import Verif.Proof.Sorter

/-! The queue loop of `AdjMat.sort`. -/

namespace TDS

namespace Sorter

/-- Rows below `n` are constant on the window `x0..x1`. -/
def Const (M : Mat) (n x0 x1 : Nat) : Prop :=
  ∀ i < n, ∀ j j', x0 ≤ j → j < x1 → x0 ≤ j' → j' < x1 → Spec.ent M i j = Spec.ent M i j'

/-- `S` is `M` with positions permuted inside `e0..e1`, positions up to `row` fixed. -/
def Moves (v : Nat) (M S : Mat) (row e0 e1 : Nat) : Prop :=
  ∃ f : Nat → Nat, (∀ j, ¬ (e0 ≤ j ∧ j < e1) → f j = j) ∧
    (∀ j, e0 ≤ j → j < e1 → e0 ≤ f j ∧ f j < e1) ∧ (∀ j ≤ row, f j = j) ∧
    ∀ a < v, ∀ b < v, Spec.ent S a b = Spec.ent M (f a) (f b)

theorem moves_refl (v : Nat) (M : Mat) (row e0 e1 : Nat) : Moves v M M row e0 e1 :=
  ⟨id, fun _ _ => rfl, fun _ h1 h2 => ⟨h1, h2⟩, fun _ _ => rfl, fun _ _ _ _ => rfl⟩

theorem Step.moves {argsort : Vec → List Nat} {v : Nat} {M S : Mat} {row c0 c1 : Nat}
    {d : Option Nat} (h : Step argsort v M S row c0 c1 d) (hr : row < c0) :
    Moves v M S row c0 c1 := by
  obtain ⟨f, h1, h2, h3⟩ := h.map
  exact ⟨f, h1, h2, fun j hj => h1 j (by omega), h3⟩

/-- Outside the window nothing moves. -/
theorem Moves.fixed {v : Nat} {M S : Mat} {row e0 e1 : Nat} (h : Moves v M S row e0 e1) {i j : Nat}
    (hi : i ≤ row) (hiv : i < v) (hjv : j < v) (hj : ¬ (e0 ≤ j ∧ j < e1)) :
    Spec.ent S i j = Spec.ent M i j := by
  obtain ⟨f, h1, h2, h3, h4⟩ := h
  rw [h4 i hiv j hjv, h3 i hi, h1 j hj]

/-- Rows that are constant on the window do not change at all. -/
theorem Moves.low {v : Nat} {M S : Mat} {row e0 e1 : Nat} (h : Moves v M S row e0 e1) {n : Nat}
    (hc : Const M n e0 e1) (hn : n ≤ row + 1) {i j : Nat} (hi : i < n) (hiv : i < v) (hjv : j < v) :
    Spec.ent S i j = Spec.ent M i j := by
  by_cases hj : e0 ≤ j ∧ j < e1
  · obtain ⟨f, h1, h2, h3, h4⟩ := h
    have := h2 j hj.1 hj.2
    rw [h4 i hiv j hjv, h3 i (by omega)]
    exact hc i hi _ _ this.1 this.2 hj.1 hj.2
  · exact h.fixed (by omega) hiv hjv hj

/-- One `_sort` call, effective or not. -/
theorem sortRow_any {argsort : Vec → List Nat} (ha : IsArgsort argsort) {v : Nat} {M : Mat}
    (hs : Spec.Square v M) (hsym : Spec.Symmetric v M) (row c0 c1 : Nat) (hv : c1 ≤ v) :
    ∃ S d, sortRow argsort M row c0 (some c1) = .ok (S, d) ∧
      ((S = M ∧ d = none) ∨ (row < c0 ∧ c0 < c1 ∧ Step argsort v M S row c0 c1 d)) := by
  by_cases hr : row < c0
  · by_cases hc : c0 < c1
    · obtain ⟨S, d, h1, h2⟩ := (sortRow_step ha hs hr hc hv).2 hsym
      exact ⟨S, d, h1, Or.inr ⟨hr, hc, h2⟩⟩
    · refine ⟨M, none, ?_, Or.inl ⟨rfl, rfl⟩⟩
      unfold sortRow
      rw [if_neg (by omega)]
      simp only
      rw [if_pos (by omega)]
  · refine ⟨M, none, ?_, Or.inl ⟨rfl, rfl⟩⟩
    unfold sortRow
    rw [if_pos (by omega)]

/-- A queue entry that describes the current matrix. -/
structure ItemOK (v : Nat) (M : Mat) (si : Instr) (d : Nat) : Prop where
  di : si.di = some d
  row : si.row < si.c0
  lo : si.c0 ≤ d
  hi : d < si.c1
  top : si.c1 ≤ v
  ones : ∀ j, si.c0 ≤ j → j < d → Spec.ent M si.row j = 1
  zeros : ∀ j, d ≤ j → j < si.c1 → Spec.ent M si.row j = 0
  const : Const M si.row si.c0 si.c1

theorem ItemOK.congr {v : Nat} {M S : Mat} {si : Instr} {d : Nat} (h : ItemOK v M si d)
    (he : ∀ i ≤ si.row, ∀ j, si.c0 ≤ j → j < si.c1 → Spec.ent S i j = Spec.ent M i j) :
    ItemOK v S si d := by
  have h1 := h.lo
  have h2 := h.hi
  refine ⟨h.di, h.row, h1, h2, h.top, ?_, ?_, ?_⟩
  · intro j hj hj'
    rw [he _ (Nat.le_refl _) j hj (by omega)]; exact h.ones j hj hj'
  · intro j hj hj'
    rw [he _ (Nat.le_refl _) j (by omega) hj']; exact h.zeros j hj hj'
  · intro i hi j j' a1 a2 a3 a4
    rw [he i (by omega) j a1 a2, he i (by omega) j' a3 a4]
    exact h.const i hi j j' a1 a2 a3 a4

/-- Step budget used by a queue. -/
def weight (v : Nat) (q : List Instr) : Nat := (q.map (fun si => 2 ^ (v - si.row) - 1)).sum

/-- Invariant of the queue loop started on `A`. -/
structure QInv (argsort : Vec → List Nat) (v : Nat) (A M : Mat) (q : List Instr) : Prop where
  square : Spec.Square v M
  sym : Spec.Symmetric v M
  bin : ∀ i < v, ∀ j < v, Spec.ent M i j = 0 ∨ Spec.ent M i j = 1
  rel : Spec.Relabels v A M
  items : ∀ si ∈ q, ∃ d, ItemOK v M si d
  rows : q.Pairwise (fun a b => a.row ≤ b.row ∧ b.row ≤ a.row + 1)
  disj : q.Pairwise (fun a b => a.c1 ≤ b.c0 ∨ b.c1 ≤ a.c0)
  row0 : ∀ j j', 1 ≤ j → j < j' → j' < v → Spec.ent M 0 j' ≤ Spec.ent M 0 j
  grow : Keeps argsort → M = A ∨ Spec.UpperLT v A M

theorem bin_relabel {v : Nat} {m m' : Mat} (hr : Spec.Relabels v m m')
    (h : ∀ i < v, ∀ j < v, Spec.ent m i j = 0 ∨ Spec.ent m i j = 1) :
    ∀ i < v, ∀ j < v, Spec.ent m' i j = 0 ∨ Spec.ent m' i j = 1 := by
  obtain ⟨σ, hσ⟩ := hr
  intro i hi j hj
  have := hσ ⟨i, hi⟩ ⟨j, hj⟩
  simp only at this
  rw [this]
  exact h _ (σ _).2 _ (σ _).2

/-- Follow-up instruction of one `_sort` call. -/
def outItem (row c0 c1 : Nat) (d : Option Nat) : List Instr :=
  match d with
  | some d => if d ≠ 0 then [⟨row, c0, c1, some d⟩] else []
  | none => []

theorem outItem_length (row c0 c1 : Nat) (d : Option Nat) :
    (outItem row c0 c1 d).length ≤ 1 := by
  unfold outItem
  split
  · split <;> simp
  · simp

theorem divSort_step {argsort : Vec → List Nat} (ha : IsArgsort argsort) {v : Nat} {A M : Mat}
    {si : Instr} {q : List Instr} (h : QInv argsort v A M (si :: q)) :
    ∃ M' sii, divSort argsort M si = .ok (M', sii) ∧ QInv argsort v A M' (q ++ sii) ∧
      weight v sii < weight v [si] := by
  obtain ⟨d, hi⟩ := h.items si (by simp)
  obtain ⟨r, c0, c1, di⟩ := si
  obtain ⟨hdi, hrow, hlo, hhi, htop, hones, hzeros, hconst⟩ := hi
  simp only at hdi hrow hlo hhi htop hones hzeros hconst
  subst hdi
  have hrowsC := List.pairwise_cons.1 h.rows
  have hdisjC := List.pairwise_cons.1 h.disj
  simp only at hrowsC hdisjC
  set c0' := if r + 1 = c0 then c0 + 1 else c0 with hc0'
  have hb1 : r + 1 < c0' ∧ c0 ≤ c0' := by
    rw [hc0']; split <;> omega
  -- rows up to `r` on both windows
  have hC1 : Const M (r + 1) c0' d := by
    intro i hi j j' a1 a2 a3 a4
    rcases Nat.lt_or_ge i r with h' | h'
    · exact hconst i h' j j' (by omega) (by omega) (by omega) (by omega)
    · have : i = r := by omega
      subst this
      rw [hones j (by omega) a2, hones j' (by omega) a4]
  have hC2 : Const M (r + 1) d c1 := by
    intro i hi j j' a1 a2 a3 a4
    rcases Nat.lt_or_ge i r with h' | h'
    · exact hconst i h' j j' (by omega) (by omega) (by omega) (by omega)
    · have : i = r := by omega
      subst this
      rw [hzeros j a1 a2, hzeros j' a3 a4]
  -- first call
  obtain ⟨M1, d1, hs1, hor1⟩ := sortRow_any ha h.square h.sym (r + 1) c0' d (by omega)
  have hm1 : Moves v M M1 (r + 1) c0' d := by
    rcases hor1 with ⟨rfl, -⟩ | ⟨g1, -, g3⟩
    · exact moves_refl _ _ _ _ _
    · exact g3.moves g1
  have hq1 : Spec.Square v M1 ∧ Spec.Relabels v M M1 := by
    rcases hor1 with ⟨rfl, -⟩ | ⟨-, -, g3⟩
    · exact ⟨h.square, relabels_refl _ _⟩
    · exact ⟨g3.square, g3.relabels⟩
  have hsym1 := symmetric_relabel hq1.2 h.sym
  have hbin1 := bin_relabel hq1.2 h.bin
  -- second call
  obtain ⟨M2, d2, hs2, hor2⟩ := sortRow_any ha hq1.1 hsym1 (r + 1) d c1 htop
  have hm2 : Moves v M1 M2 (r + 1) d c1 := by
    rcases hor2 with ⟨rfl, -⟩ | ⟨g1, -, g3⟩
    · exact moves_refl _ _ _ _ _
    · exact g3.moves g1
  have hq2 : Spec.Square v M2 ∧ Spec.Relabels v M1 M2 := by
    rcases hor2 with ⟨rfl, -⟩ | ⟨-, -, g3⟩
    · exact ⟨hq1.1, relabels_refl _ _⟩
    · exact ⟨g3.square, g3.relabels⟩
  have hsym2 := symmetric_relabel hq2.2 hsym1
  have hbin2 := bin_relabel hq2.2 hbin1
  have low1 : ∀ i ≤ r, ∀ j < v, Spec.ent M1 i j = Spec.ent M i j := fun i hi j hj =>
    hm1.low hC1 (by omega) (by omega) (by omega) hj
  have hC2' : Const M1 (r + 1) d c1 := by
    intro i hi j j' a1 a2 a3 a4
    rw [low1 i (by omega) j (by omega), low1 i (by omega) j' (by omega)]
    exact hC2 i hi j j' a1 a2 a3 a4
  have hC1' : Const M1 (r + 1) c0' d := by
    intro i hi j j' a1 a2 a3 a4
    rw [low1 i (by omega) j (by omega), low1 i (by omega) j' (by omega)]
    exact hC1 i hi j j' a1 a2 a3 a4
  have low2 : ∀ i ≤ r, ∀ j < v, Spec.ent M2 i j = Spec.ent M1 i j := fun i hi j hj =>
    hm2.low hC2' (by omega) (by omega) (by omega) hj
  -- entries of the output
  have hout1 : ∃ out1 : List Instr, out1 = outItem (r + 1) c0' d d1 := ⟨_, rfl⟩
  have hout2 : ∃ out2 : List Instr, out2 = outItem (r + 1) d c1 d2 := ⟨_, rfl⟩
  obtain ⟨out1, hout1⟩ := hout1
  obtain ⟨out2, hout2⟩ := hout2
  have hrun : divSort argsort M ⟨r, c0, c1, some d⟩ = .ok (M2, out1 ++ out2) := by
    unfold divSort
    simp only
    rw [← hc0', hs1, ok_bind]
    simp only
    rw [hs2, ok_bind, hout1, hout2]
    rfl
  have hitem1 : ∀ x ∈ out1, x.row = r + 1 ∧ x.c0 = c0' ∧ x.c1 = d ∧ ∃ d', ItemOK v M2 x d' := by
    intro x hx
    rw [hout1] at hx
    rcases hor1 with ⟨-, hn⟩ | ⟨g1, g2, g3⟩
    · rw [hn] at hx; simp [outItem] at hx
    · cases hd1 : d1 with
      | none => rw [hd1] at hx; simp [outItem] at hx
      | some d' =>
        rw [hd1] at hx
        simp only [outItem] at hx
        obtain ⟨e1, e2, e3, e4⟩ := g3.first d' hd1
        rw [if_pos (by omega), List.mem_singleton] at hx
        subst hx
        refine ⟨rfl, rfl, rfl, d', ?_⟩
        have hI : ItemOK v M1 ⟨r + 1, c0', d, some d'⟩ d' := by
          refine ⟨rfl, g1, e1, e2, by simp only; omega, ?_, ?_, hC1'⟩
          · intro j hj hj'
            simp only at hj ⊢
            rcases hbin1 (r + 1) (by omega) j (by omega) with h0 | h0
            · exact absurd h0 (e4 j hj hj')
            · exact h0
          · intro j hj hj'
            simp only at hj' ⊢
            rcases Nat.lt_or_ge d' j with hlt | hge
            · have := g3.sorted d' j e1 hlt hj'
              rcases hbin1 (r + 1) (by omega) j (by omega) with h0 | h0
              · exact h0
              · omega
            · have : j = d' := by omega
              rw [this]; exact e3
        refine hI.congr ?_
        intro i hi j hj hj'
        simp only at hi hj hj'
        exact hm2.fixed hi (by omega) (by omega) (by omega)
  have hitem2 : ∀ x ∈ out2, x.row = r + 1 ∧ x.c0 = d ∧ x.c1 = c1 ∧ ∃ d', ItemOK v M2 x d' := by
    intro x hx
    rw [hout2] at hx
    rcases hor2 with ⟨-, hn⟩ | ⟨g1, g2, g3⟩
    · rw [hn] at hx; simp [outItem] at hx
    · cases hd2 : d2 with
      | none => rw [hd2] at hx; simp [outItem] at hx
      | some d' =>
        rw [hd2] at hx
        simp only [outItem] at hx
        obtain ⟨e1, e2, e3, e4⟩ := g3.first d' hd2
        rw [if_pos (by omega), List.mem_singleton] at hx
        subst hx
        refine ⟨rfl, rfl, rfl, d', ?_⟩
        refine ⟨rfl, g1, e1, e2, htop, ?_, ?_, ?_⟩
        · intro j hj hj'
          simp only at hj ⊢
          rcases hbin2 (r + 1) (by omega) j (by omega) with h0 | h0
          · exact absurd h0 (e4 j hj hj')
          · exact h0
        · intro j hj hj'
          simp only at hj' ⊢
          rcases Nat.lt_or_ge d' j with hlt | hge
          · have := g3.sorted d' j e1 hlt hj'
            rcases hbin2 (r + 1) (by omega) j (by omega) with h0 | h0
            · exact h0
            · omega
          · have : j = d' := by omega
            rw [this]; exact e3
        · intro i hi j j' a1 a2 a3 a4
          simp only at hi a1 a2 a3 a4
          rw [low2 i (by omega) j (by omega), low2 i (by omega) j' (by omega)]
          exact hC2' i hi j j' a1 a2 a3 a4
  have hlen1 : out1.length ≤ 1 := by
    rw [hout1]; exact outItem_length _ _ _ _
  have hlen2 : out2.length ≤ 1 := by
    rw [hout2]; exact outItem_length _ _ _ _
  refine ⟨M2, out1 ++ out2, hrun, ?_, ?_⟩
  · refine ⟨hq2.1, hsym2, hbin2, relabels_trans h.rel (relabels_trans hq1.2 hq2.2), ?_, ?_, ?_,
      ?_, ?_⟩
    · intro x hx
      rcases List.mem_append.1 hx with hx | hx
      · obtain ⟨dx, hdx⟩ := h.items x (List.mem_cons_of_mem _ hx)
        have hr' := hrowsC.1 x hx
        have hd' := hdisjC.1 x hx
        have ht := hdx.top
        have hxr := hdx.row
        refine ⟨dx, hdx.congr ?_⟩
        intro i hi j hj hj'
        rw [hm2.fixed (by omega) (by omega) (by omega) (by omega),
          hm1.fixed (by omega) (by omega) (by omega) (by omega)]
      · rcases List.mem_append.1 hx with hx | hx
        · exact (hitem1 x hx).2.2.2
        · exact (hitem2 x hx).2.2.2
    · rw [List.pairwise_append]
      refine ⟨hrowsC.2, ?_, ?_⟩
      · have hall : ∀ x ∈ out1 ++ out2, x.row = r + 1 := by
          intro x hx
          rcases List.mem_append.1 hx with hx | hx
          · exact (hitem1 x hx).1
          · exact (hitem2 x hx).1
        refine List.Pairwise.imp_of_mem (R := fun _ _ => True) ?_ (List.pairwise_of_forall (by simp))
        intro a b ha hb _
        have := hall a ha; have := hall b hb; omega
      · intro a ha b hb
        have hra := hrowsC.1 a ha
        have : b.row = r + 1 := by
          rcases List.mem_append.1 hb with hx | hx
          · exact (hitem1 b hx).1
          · exact (hitem2 b hx).1
        omega
    · rw [List.pairwise_append]
      refine ⟨hdisjC.2, ?_, ?_⟩
      · rw [List.pairwise_append]
        refine ⟨?_, ?_, ?_⟩
        · cases hx : out1 with
          | nil => simp
          | cons a t =>
            rw [hx] at hlen1
            have : t = [] := by simpa using hlen1
            subst this; simp
        · cases hx : out2 with
          | nil => simp
          | cons a t =>
            rw [hx] at hlen2
            have : t = [] := by simpa using hlen2
            subst this; simp
        · intro a ha b hb
          have h1 := hitem1 a ha
          have h2 := hitem2 b hb
          omega
      · intro a ha b hb
        have hda := hdisjC.1 a ha
        rcases List.mem_append.1 hb with hx | hx
        · have := hitem1 b hx; omega
        · have := hitem2 b hx; omega
    · intro j j' a1 a2 a3
      rw [low2 0 (by omega) j (by omega), low2 0 (by omega) j' (by omega),
        low1 0 (by omega) j (by omega), low1 0 (by omega) j' (by omega)]
      exact h.row0 j j' a1 a2 a3
    · intro hk
      have g1 : M1 = M ∨ Spec.UpperLT v M M1 := by
        rcases hor1 with ⟨rfl, -⟩ | ⟨-, -, g3⟩
        · left; rfl
        · exact g3.grow hC1 hk
      have g2 : M2 = M1 ∨ Spec.UpperLT v M1 M2 := by
        rcases hor2 with ⟨rfl, -⟩ | ⟨-, -, g3⟩
        · left; rfl
        · exact g3.grow hC2' hk
      have tr : ∀ {X Y Z : Mat}, (Y = X ∨ Spec.UpperLT v X Y) → (Z = Y ∨ Spec.UpperLT v Y Z) →
          (Z = X ∨ Spec.UpperLT v X Z) := by
        intro X Y Z hx hy
        rcases hx with rfl | hx
        · exact hy
        · rcases hy with rfl | hy
          · exact Or.inr hx
          · exact Or.inr (upperLT_trans hx hy)
      exact tr (tr (h.grow hk) g1) g2
  · have hw : ∀ l : List Instr, l.length ≤ 1 → (∀ x ∈ l, x.row = r + 1) →
        weight v l ≤ 2 ^ (v - (r + 1)) - 1 := by
      intro l hl hx
      match l with
      | [] => simp [weight]
      | [a] => simp [weight, hx a (by simp)]
      | _ :: _ :: _ => simp at hl
    have w1 := hw out1 hlen1 (fun x hx => (hitem1 x hx).1)
    have w2 := hw out2 hlen2 (fun x hx => (hitem2 x hx).1)
    have w3 : weight v (out1 ++ out2) = weight v out1 + weight v out2 := by
      simp [weight]
    have w4 : weight v [⟨r, c0, c1, some d⟩] = 2 ^ (v - r) - 1 := by simp [weight]
    have w5 : 2 ^ (v - r) = 2 * 2 ^ (v - (r + 1)) := by
      rw [show v - r = v - (r + 1) + 1 by omega, Nat.pow_succ]; omega
    have w6 : 0 < 2 ^ (v - (r + 1)) := Nat.pow_pos (by decide)
    omega

theorem sortLoop_ok {argsort : Vec → List Nat} (ha : IsArgsort argsort) {v : Nat} {A : Mat}
    (n : Nat) : ∀ (M : Mat) (q : List Instr), QInv argsort v A M q → weight v q ≤ n →
      ∃ M', sortLoop argsort n M q = .ok M' ∧ QInv argsort v A M' [] := by
  induction n with
  | zero =>
    intro M q h hw
    cases q with
    | nil => exact ⟨M, rfl, h⟩
    | cons si q =>
      exfalso
      obtain ⟨d, hi⟩ := h.items si (by simp)
      have h1 := hi.row; have h2 := hi.lo; have h3 := hi.hi; have h4 := hi.top
      have : 2 ≤ 2 ^ (v - si.row) := by
        rw [show v - si.row = v - si.row - 1 + 1 by omega, Nat.pow_succ]
        have : 0 < 2 ^ (v - si.row - 1) := Nat.pow_pos (by decide)
        omega
      simp [weight] at hw
      omega
  | succ n ih =>
    intro M q h hw
    cases q with
    | nil => exact ⟨M, rfl, h⟩
    | cons si q =>
      obtain ⟨M', sii, h1, h2, h3⟩ := divSort_step ha h
      have hw' : weight v (q ++ sii) ≤ n := by
        have e1 : weight v (si :: q) = weight v [si] + weight v q := by simp [weight]
        have e2 : weight v (q ++ sii) = weight v q + weight v sii := by simp [weight]
        omega
      obtain ⟨M'', g1, g2⟩ := ih M' _ h2 hw'
      refine ⟨M'', ?_, g2⟩
      unfold sortLoop
      rw [h1, ok_bind]
      exact g1

/-- The run of `maximize` on a symmetric 0/1 matrix whose first row has a zero right of the
diagonal. -/
theorem maximize_run {argsort : Vec → List Nat} (ha : IsArgsort argsort) {v : Nat} {A : Mat}
    (hs : Spec.Square v A) (hsym : Spec.Symmetric v A) (hb : ∀ r ∈ A, Spec.Bin r)
    (hz : ∃ j, 1 ≤ j ∧ j < v ∧ Spec.ent A 0 j = 0) :
    ∃ M S d, maximize argsort A = .ok M ∧ sortRow argsort A 0 1 (some v) = .ok (S, some d) ∧
      QInv argsort v A S [⟨0, 1, v, some d⟩] ∧
      sortLoop argsort (2 ^ (v + 1)) S [⟨0, 1, v, some d⟩] = .ok M ∧ QInv argsort v A M [] := by
  obtain ⟨z, hz1, hz2, hz3⟩ := hz
  obtain ⟨S, d, h1, h2⟩ := (sortRow_step ha hs (show 0 < 1 by omega) (show 1 < v by omega)
    (Nat.le_refl v)).2 hsym
  rw [bin_iff hs] at hb
  have hbS := bin_relabel h2.relabels hb
  have hd : ∃ d', d = some d' := by
    cases d with
    | some d' => exact ⟨d', rfl⟩
    | none =>
      exfalso
      have hall := h2.none rfl
      obtain ⟨j, a1, a2, a3⟩ := h2.hit z hz1 hz2
      exact hall j a1 a2 (a3.trans hz3)
  obtain ⟨d', rfl⟩ := hd
  obtain ⟨e1, e2, e3, e4⟩ := h2.first d' rfl
  have hinv : QInv argsort v A S [⟨0, 1, v, some d'⟩] := by
    refine ⟨h2.square, symmetric_relabel h2.relabels hsym, hbS, h2.relabels, ?_, by simp, by simp,
      fun j j' a1 a2 a3 => h2.sorted j j' a1 a2 a3, fun hk => h2.grow (by intro i hi; omega) hk⟩
    intro si hsi
    rw [List.mem_singleton] at hsi
    subst hsi
    refine ⟨d', rfl, by simp, e1, e2, Nat.le_refl _, ?_, ?_, by intro i hi; simp at hi⟩
    · intro j a1 a2
      simp only at a1 ⊢
      rcases hbS 0 (by omega) j (by omega) with h0 | h0
      · exact absurd h0 (e4 j a1 a2)
      · exact h0
    · intro j a1 a2
      simp only at a2 ⊢
      rcases Nat.lt_or_ge d' j with hlt | hge
      · have := h2.sorted d' j e1 hlt a2
        rcases hbS 0 (by omega) j (by omega) with h0 | h0
        · exact h0
        · omega
      · have : j = d' := by omega
        rw [this]; exact e3
  obtain ⟨M, g1, g2⟩ := sortLoop_ok ha (2 ^ (v + 1)) S _ hinv (by
    simp only [weight, List.map_cons, List.map_nil, List.sum_cons, List.sum_nil, Nat.sub_zero]
    have : 2 ^ v ≤ 2 ^ (v + 1) := Nat.pow_le_pow_right (by decide) (by omega)
    omega)
  refine ⟨M, S, d', ?_, h1, hinv, g1, g2⟩
  unfold maximize
  simp only [hs.rows]
  rw [h1, ok_bind]
  exact g1

/-- `maximize` on a symmetric 0/1 matrix whose first row has a zero right of the diagonal. -/
theorem maximize_ok {argsort : Vec → List Nat} (ha : IsArgsort argsort) {v : Nat} {A : Mat}
    (hs : Spec.Square v A) (hsym : Spec.Symmetric v A) (hb : ∀ r ∈ A, Spec.Bin r)
    (hz : ∃ j, 1 ≤ j ∧ j < v ∧ Spec.ent A 0 j = 0) :
    ∃ M, maximize argsort A = .ok M ∧ QInv argsort v A M [] := by
  obtain ⟨M, S, d, h1, -, -, -, h2⟩ := maximize_run ha hs hsym hb hz
  exact ⟨M, h1, h2⟩

end Sorter

end TDS
