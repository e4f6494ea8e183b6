import Verif.Proof.Family
import Verif.Proof.Paley
import Verif.Props.C01
import Verif.Props.Exact
import Verif.SpecG
import Mathlib.Data.Finset.Powerset
import Mathlib.Data.ZMod.Basic
import Mathlib.Algebra.Field.ZMod
import Mathlib.Tactic.NormNum.Prime
import Verif.Props.Database

/-!
C76: classical families of strongly regular graphs are found.

The families are defined in `Verif.SpecP` without the model.  The graphs have up to 66 vertices, far more than
any search that can be run.
-/

namespace TDS

open Finset

theorem found {V : Type*} [Fintype V] [DecidableEq V] (G : SimpleGraph V) [DecidableRel G.Adj] {v k l u : ℕ}
    (h : G.IsSRGWith v k l u) (hk : 0 < k) (hv : 3 ≤ v) (hv' : v ≤ 66) {out : List Mat}
    (ho : IsOutput v k l u out) : ∃ m ∈ out, Spec.Depicts v m G := by
  obtain ⟨s, out', h1, h2, m, hm, e, he⟩ := C01_complete G h hv hv' (Or.inl hk)
  obtain ⟨s', h1', h2'⟩ := ho
  rw [h1] at h1'
  cases h1'
  rw [h2] at h2'
  cases h2'
  exact ⟨m, hm, e, he⟩

/-- **C76.**  What the search finds the command prints, whatever the graph. -/
theorem C76_command {V : Type*} [Fintype V] [DecidableEq V] (G : SimpleGraph V) [DecidableRel G.Adj]
    {v k l u : ℕ} (h : G.IsSRGWith v k l u) (hk : 0 < k) (hv : 3 ≤ v) (hv' : v ≤ 66) {argv : List Str}
    (ha : argv.mapM parseInt = .ok [(v : Int), (k : Int), (l : Int), (u : Int)]) :
    ∃ out, main argv = .ok out ∧ ∃ m ∈ out, Spec.Depicts v m G := by
  have σ : Fin v ≃ V := (Fintype.equivFinOfCardEq h.card).symm
  obtain ⟨out, ho⟩ := (C38_rejects ha (by omega) (by omega)).2 ((arr_of_srg h σ).count (by omega))
  obtain ⟨s, ans, h1, h2, hp, -, -⟩ := C38_output ha hv hv' ho
  obtain ⟨m, hm, hd⟩ := found G h hk hv hv' ⟨s, h1, h2⟩
  exact ⟨out, ho, m, hp.mem_iff.2 hm, hd⟩

/-- **C76.**  The graph of a partial geometry is found. -/
theorem C76_geometry {P L : Type*} [Fintype P] [Fintype L] {inc : P → L → Prop} {s t α : Nat}
    (h : Spec.PartialGeometry inc s t α) (hs : 1 ≤ s) {v : Nat} (hv : Fintype.card P = v) (h3 : 3 ≤ v)
    (h66 : v ≤ 66) {out : List Mat}
    (ho : IsOutput v ((t + 1) * s : Nat) (s - 1 + t * (α - 1) : Nat) ((t + 1) * α : Nat) out) :
    ∃ m ∈ out, Spec.Depicts v m (Spec.collinear inc) := by
  classical
  exact found _ (collinear_srg h hv hs) (Nat.mul_pos (by omega) hs) h3 h66 ho

/-- **C76.**  The graph of a net, that is of a set of `m + 1` mutually orthogonal labellings by `n + 1` labels. -/
theorem C76_net {ι P X : Type*} [Fintype ι] [Fintype P] [Fintype X] {f : ι → P → X} {n m : Nat}
    (hf : ∀ i j, i ≠ j → Function.Bijective (fun p => (f i p, f j p))) (hn : Fintype.card X = n + 1)
    (hm : Fintype.card ι = m + 1) (h1 : 1 ≤ m) (h2 : 1 ≤ n) (h7 : n ≤ 7) {out : List Mat}
    (ho : IsOutput ((n + 1) * (n + 1)) ((m + 1) * n : Nat) (n - 1 + m * (m - 1) : Nat) ((m + 1) * m : Nat) out) :
    ∃ a ∈ out, Spec.Depicts ((n + 1) * (n + 1)) a
      (Spec.collinear (fun (p : P) (c : ι × X) => f c.1 p = c.2)) := by
  refine C76_geometry (net_geometry hf hn hm h1) h2 ?_ ?_ ?_ ho
  · obtain ⟨i, j, hij⟩ := Fintype.exists_pair_of_one_lt_card (α := ι) (by omega)
    rw [Fintype.card_of_bijective (hf i j hij), Fintype.card_prod, hn]
  · nlinarith
  · nlinarith

/-- **C76.**  The lattice graphs are found. -/
theorem C76_rook {n : Nat} (h1 : 2 ≤ n) (h8 : n ≤ 8) {out : List Mat}
    (ho : IsOutput (n * n) (2 * (n - 1) : Nat) (n - 2 : Nat) 2 out) :
    ∃ a ∈ out, Spec.Depicts (n * n) a (Spec.rook (Fin n)) := by
  obtain ⟨n, rfl⟩ : ∃ d, n = d + 1 := ⟨n - 1, by omega⟩
  have key := C76_net (ι := Bool) (P := Fin (n + 1) × Fin (n + 1)) (X := Fin (n + 1)) (n := n) (m := 1)
    (f := fun i p => if i then p.1 else p.2) ?_ (by simp) (by simp) le_rfl (by omega) (by omega) (out := out) ?_
  · convert key using 4
    ext a b
    simp only [Spec.rook, Spec.collinear, Prod.exists]
    refine and_congr_right fun _ => ⟨?_, ?_⟩
    · rintro (h | h)
      · exact ⟨true, a.1, by simp, by simp [h]⟩
      · exact ⟨false, a.2, by simp, by simp [h]⟩
    · rintro ⟨i, x, h, h'⟩
      cases i
      · exact Or.inr (by simp at h h'; rw [h, h'])
      · exact Or.inl (by simp at h h'; rw [h, h'])
  · intro i j hij
    match i, j, hij with
    | true, true, hij => exact (hij rfl).elim
    | false, false, hij => exact (hij rfl).elim
    | false, true, _ => exact (Equiv.prodComm _ _).bijective
    | true, false, _ => exact Function.bijective_id
  · simpa using ho

/-- **C76.**  The graph of any Latin square is found. -/
theorem C76_latin {X : Type*} [Fintype X] {q : X → X → X} (hr : ∀ x, Function.Bijective (q x))
    (hc : ∀ y, Function.Bijective (fun x => q x y)) {n : Nat} (hn : Fintype.card X = n) (h2 : 2 ≤ n)
    (h8 : n ≤ 8) {out : List Mat} (ho : IsOutput (n * n) (3 * (n - 1) : Nat) n 6 out) :
    ∃ a ∈ out, Spec.Depicts (n * n) a (Spec.latin q) := by
  obtain ⟨n, rfl⟩ : ∃ d, n = d + 1 := ⟨n - 1, by omega⟩
  have e : n - 1 + 2 * (2 - 1) = n + 1 := by omega
  have key := C76_net (ι := Fin 3) (P := X × X) (X := X) (n := n) (m := 2)
    (f := ![fun p => p.1, fun p => p.2, fun p => q p.1 p.2]) ?_ hn (by simp) (by norm_num) (by omega) (by omega)
    (out := out) ?_
  · convert key using 4
    ext a b
    simp only [Spec.latin, Spec.collinear, Prod.exists]
    refine and_congr_right fun _ => ⟨?_, ?_⟩
    · rintro (h | h | h)
      · exact ⟨0, a.1, by simp, by simp [h]⟩
      · exact ⟨1, a.2, by simp, by simp [h]⟩
      · exact ⟨2, q a.1 a.2, by simp, by simp [h]⟩
    · rintro ⟨i, x, h, h'⟩
      fin_cases i
      · exact Or.inl (by simp at h h'; rw [h, h'])
      · exact Or.inr (Or.inl (by simp at h h'; rw [h, h']))
      · exact Or.inr (Or.inr (by simp at h h'; rw [h, h']))
  · have sym : ∀ f g : X × X → X, Function.Bijective (fun p => (f p, g p)) →
        Function.Bijective (fun p => (g p, f p)) := fun f g h => (Equiv.prodComm _ _).bijective.comp h
    have h01 : Function.Bijective (fun p : X × X => (p.1, p.2)) := Function.bijective_id
    have h02 : Function.Bijective (fun p : X × X => (p.1, q p.1 p.2)) := by
      constructor
      · rintro ⟨a, b⟩ ⟨c, d⟩ h
        simp only [Prod.mk.injEq] at h
        obtain ⟨rfl, h⟩ := h
        rw [(hr a).1 h]
      · rintro ⟨a, b⟩
        obtain ⟨y, hy⟩ := (hr a).2 b
        exact ⟨(a, y), by simp [hy]⟩
    have h12 : Function.Bijective (fun p : X × X => (p.2, q p.1 p.2)) := by
      constructor
      · rintro ⟨a, b⟩ ⟨c, d⟩ h
        simp only [Prod.mk.injEq] at h
        obtain ⟨rfl, h⟩ := h
        rw [(hc b).1 h]
      · rintro ⟨a, b⟩
        obtain ⟨y, hy⟩ := (hc a).2 b
        exact ⟨(y, a), by simpa using hy⟩
    intro i j hij
    fin_cases i <;> fin_cases j <;> first
      | exact (hij rfl).elim
      | exact h01
      | exact h02
      | exact h12
      | exact sym (fun p => p.1) (fun p => p.2) h01
      | exact sym (fun p => p.1) (fun p => q p.1 p.2) h02
      | exact sym (fun p => p.2) (fun p => q p.1 p.2) h12
  · simpa [e] using ho

/-- **C76.**  The graphs of a set of slopes in a plane over a finite field are found. -/
theorem C76_slopes {F : Type*} [Field F] [Fintype F] (S : Finset F) {n m : Nat} (hn : Fintype.card F = n + 1)
    (hm : S.card = m) (h1 : 1 ≤ m) (h7 : n ≤ 7) {out : List Mat}
    (ho : IsOutput ((n + 1) * (n + 1)) ((m + 1) * n : Nat) (n - 1 + m * (m - 1) : Nat) ((m + 1) * m : Nat) out) :
    ∃ a ∈ out, Spec.Depicts ((n + 1) * (n + 1)) a (Spec.slopes S) := by
  classical
  have h2 : 1 ≤ n := by
    have := Fintype.one_lt_card (α := F)
    omega
  have key := C76_net (ι := Option S) (P := F × F) (X := F) (n := n) (m := m)
    (f := fun i p => match i with | none => p.1 | some t => p.2 - t * p.1) ?_ hn (by simp [hm]) h1 h2 h7 ho
  · convert key using 4
    ext a b
    simp only [Spec.slopes, Spec.collinear, Prod.exists]
    refine and_congr_right fun _ => ⟨?_, ?_⟩
    · rintro (h | ⟨t, ht, h⟩)
      · exact ⟨none, a.1, rfl, h.symm⟩
      · refine ⟨some ⟨t, ht⟩, a.2 - t * a.1, rfl, ?_⟩
        simp only
        linear_combination -h
    · rintro ⟨i, x, h, h'⟩
      match i with
      | none => exact Or.inl (h.trans h'.symm)
      | some t =>
        refine Or.inr ⟨t, t.2, ?_⟩
        simp only at h h'
        linear_combination h - h'
  · intro i j hij
    match i, j with
    | none, none => exact (hij rfl).elim
    | none, some t =>
      constructor
      · rintro ⟨a, b⟩ ⟨c, d⟩ h
        simp only [Prod.mk.injEq] at h
        obtain ⟨rfl, h⟩ := h
        rw [sub_left_inj] at h
        rw [h]
      · rintro ⟨a, b⟩
        exact ⟨(a, b + t * a), by simp⟩
    | some t, none =>
      constructor
      · rintro ⟨a, b⟩ ⟨c, d⟩ h
        simp only [Prod.mk.injEq] at h
        obtain ⟨h, rfl⟩ := h
        rw [sub_left_inj] at h
        rw [h]
      · rintro ⟨a, b⟩
        exact ⟨(b, a + t * b), by simp⟩
    | some t, some t' =>
      have ht : (t : F) - t' ≠ 0 := by
        rw [sub_ne_zero]
        intro e
        exact hij (by rw [Subtype.ext e])
      constructor
      · rintro ⟨a, b⟩ ⟨c, d⟩ h
        simp only [Prod.mk.injEq] at h
        obtain ⟨h1, h2⟩ := h
        have : ((t : F) - t') * a = (t - t') * c := by linear_combination h2 - h1
        have := mul_left_cancel₀ ht this
        subst this
        rw [sub_left_inj] at h1
        rw [h1]
      · rintro ⟨a, b⟩
        refine ⟨((b - a) / (t - t'), a + t * ((b - a) / (t - t'))), ?_⟩
        simp only [Prod.mk.injEq]
        constructor
        · ring
        · field_simp
          ring

/-- **C76.**  The graph of the blocks of a Steiner system is found. -/
theorem C76_steiner {X B : Type*} [Fintype X] [Fintype B] [DecidableEq X] {inc : X → B → Prop} {r K : Nat}
    [∀ x b, Decidable (inc x b)]
    (hxy : ∀ x y, x ≠ y → ∃ b, inc x b ∧ inc y b ∧ ∀ c, inc x c → inc y c → c = b)
    (hK : ∀ b, #{x | inc x b} = K + 1) (hr : ∀ x, #{b | inc x b} = r + 1) (h1 : 1 ≤ r) {v : Nat}
    (hv : Fintype.card B = v) (h3 : 3 ≤ v) (h66 : v ≤ 66) {out : List Mat}
    (ho : IsOutput v ((K + 1) * r : Nat) (r - 1 + K * K : Nat) ((K + 1) * (K + 1) : Nat) out) :
    ∃ m ∈ out, Spec.Depicts v m (Spec.collinear (fun b x => inc x b)) :=
  C76_geometry (steiner_geometry hxy hK hr) h1 hv h3 h66 ho

/-- **C76.**  The triangular graphs are found. -/
theorem C76_triangular {n : Nat} (h3 : 3 ≤ n) (h12 : n ≤ 12) {out : List Mat}
    (ho : IsOutput (n.choose 2) (2 * (n - 2) : Nat) (n - 2 : Nat) 4 out) :
    ∃ a ∈ out, Spec.Depicts (n.choose 2) a (Spec.triangular (Fin n)) := by
  obtain ⟨n, rfl⟩ : ∃ d, n = d + 3 := ⟨n - 3, by omega⟩
  have key := C76_steiner (X := Fin (n + 3)) (B := {s : Finset (Fin (n + 3)) // s.card = 2})
    (inc := fun x b => x ∈ b.1) (r := n + 1) (K := 1) (v := (n + 3).choose 2) ?_ ?_ ?_ (by omega) ?_ ?_ ?_
    (out := out) ?_
  · exact key
  · intro x y hxy
    refine ⟨⟨{x, y}, card_pair hxy⟩, by simp, by simp, ?_⟩
    rintro ⟨c, hc⟩ h1 h2
    refine Subtype.ext (Eq.symm (eq_of_subset_of_card_le ?_ ?_))
    · intro z hz
      rcases mem_insert.1 hz with rfl | hz
      · exact h1
      · rw [mem_singleton.1 hz]
        exact h2
    · rw [hc, card_pair hxy]
  · rintro ⟨b, hb⟩
    refine Eq.trans (congrArg card ?_) hb
    ext x
    simp
  · intro x
    have : #((univ : Finset (Fin (n + 3))).erase x) = n + 1 + 1 := by simp
    rw [← this]
    symm
    refine card_bij (fun y hy => ⟨{x, y}, card_pair (ne_of_mem_erase hy).symm⟩) ?_ ?_ ?_
    · intro y hy
      simp
    · intro y hy z hz h
      simp only [Subtype.mk.injEq] at h
      have : y ∈ ({x, z} : Finset _) := by rw [← h]; simp
      rcases mem_insert.1 this with e | e
      · exact ((ne_of_mem_erase hy) e).elim
      · exact mem_singleton.1 e
    · rintro ⟨b, hb⟩ hx
      have hx : x ∈ b := by simpa using hx
      obtain ⟨y, hy⟩ : ∃ y, b.erase x = {y} := card_eq_one.1 (by rw [card_erase_of_mem hx, hb])
      refine ⟨y, ?_, ?_⟩
      · have : y ∈ b.erase x := by rw [hy]; simp
        exact mem_erase.2 ⟨ne_of_mem_erase this, mem_univ _⟩
      · refine Subtype.ext ?_
        simp only
        rw [← hy, insert_erase hx]
  · rw [Fintype.card_finset_len, Fintype.card_fin]
  · exact Nat.choose_le_choose 2 (show 3 ≤ n + 3 by omega)
  · exact (Nat.choose_le_choose 2 h12).trans (by decide)
  · simpa using ho

/-- **C76.**  The Paley graphs are found. -/
theorem C76_paley {F : Type*} [Field F] [Fintype F] (h : IsSquare (-1 : F)) {n : Nat}
    (hn : Fintype.card F = 4 * n + 1) (h16 : n ≤ 16) {out : List Mat}
    (ho : IsOutput (4 * n + 1) (2 * n : Nat) (n - 1 : Nat) n out) :
    ∃ m ∈ out, Spec.Depicts (4 * n + 1) m (Spec.paley F h) := by
  classical
  have h1 := Fintype.one_lt_card (α := F)
  have hF : ringChar F ≠ 2 := by
    rw [Ne, FiniteField.even_card_iff_char_two, hn]
    omega
  exact found _ (paley_srg h hF hn) (by omega) (by omega) (by omega) ho

theorem output_exists {v : Nat} (hv : 3 ≤ v) (hv' : v ≤ 66) (k l u : Int) : ∃ out, IsOutput v k l u out := by
  obtain ⟨s, out, h1, h2⟩ := C05_total hv hv' k l u
  exact ⟨out, s, h1, h2⟩

local instance prime7 : Fact (Nat.Prime 7) := ⟨by norm_num⟩
local instance prime61 : Fact (Nat.Prime 61) := ⟨by norm_num⟩

/-- Non-vacuity: the lattice graph with 64 vertices. -/
example : ∃ out, IsOutput 64 14 6 2 out ∧ ∃ m ∈ out, Spec.Depicts 64 m (Spec.rook (Fin 8)) := by
  obtain ⟨out, ho⟩ := output_exists (v := 64) (by norm_num) (by norm_num) 14 6 2
  exact ⟨out, ho, C76_rook (n := 8) (by norm_num) (by norm_num) ho⟩

/-- Non-vacuity: the triangular graph with 66 vertices. -/
example : ∃ out, IsOutput 66 20 10 4 out ∧ ∃ m ∈ out, Spec.Depicts 66 m (Spec.triangular (Fin 12)) := by
  obtain ⟨out, ho⟩ := output_exists (v := 66) (by norm_num) (by norm_num) 20 10 4
  exact ⟨out, ho, C76_triangular (n := 12) (by norm_num) (by norm_num) ho⟩

/-- Non-vacuity: the Latin square of addition modulo 7. -/
example : ∃ out, IsOutput 49 18 7 6 out ∧
    ∃ m ∈ out, Spec.Depicts 49 m (Spec.latin (fun x y : ZMod 7 => x + y)) := by
  obtain ⟨out, ho⟩ := output_exists (v := 49) (by norm_num) (by norm_num) 18 7 6
  exact ⟨out, ho, C76_latin (n := 7) (fun x => (Equiv.addLeft x).bijective) (fun y => (Equiv.addRight y).bijective)
    (by simp) (by norm_num) (by norm_num) ho⟩

/-- Non-vacuity: three slopes and the vertical in the plane of order 7. -/
example : ∃ out, IsOutput 49 24 11 12 out ∧
    ∃ m ∈ out, Spec.Depicts 49 m (Spec.slopes ({0, 1, 2} : Finset (ZMod 7))) := by
  obtain ⟨out, ho⟩ := output_exists (v := 49) (by norm_num) (by norm_num) 24 11 12
  exact ⟨out, ho, C76_slopes (n := 6) (m := 3) _ (by simp) (by decide) (by norm_num) (by norm_num) ho⟩

/-- Non-vacuity: the triples `{i, i + 1, i + 4}` and `{i, i + 2, i + 7}` modulo 13. -/
example : ∃ out, IsOutput 26 15 8 9 out ∧ ∃ m ∈ out, Spec.Depicts 26 m
    (Spec.collinear (fun (b : ZMod 13 × Bool) (x : ZMod 13) =>
      x - b.1 ∈ (if b.2 then {0, 1, 4} else {0, 2, 7} : Finset (ZMod 13)))) := by
  obtain ⟨out, ho⟩ := output_exists (v := 26) (by norm_num) (by norm_num) 15 8 9
  exact ⟨out, ho, C76_steiner (r := 5) (K := 2) (by decide +kernel) (by decide +kernel) (by decide +kernel)
    (by norm_num) (by decide +kernel) (by norm_num) (by norm_num) ho⟩

/-- Non-vacuity: the Paley graph with 61 vertices. -/
example : ∃ out, IsOutput 61 30 14 15 out ∧
    ∃ h, ∃ m ∈ out, Spec.Depicts 61 m (Spec.paley (ZMod 61) h) := by
  obtain ⟨out, ho⟩ := output_exists (v := 61) (by norm_num) (by norm_num) 30 14 15
  exact ⟨out, ho, ⟨11, by decide⟩, C76_paley (n := 15) _ (by simp) (by norm_num) ho⟩

/-- Non-vacuity: and so the program called with these parameters ends with this graph among the answers. -/
example : ∃ out, main (["61", "30", "14", "15"].map String.toList) = .ok out ∧
    ∃ m ∈ out, ∃ h, Spec.Depicts 61 m (Spec.paley (ZMod 61) h) := by
  classical
  have h : IsSquare (-1 : ZMod 61) := ⟨11, by decide⟩
  have hF : ringChar (ZMod 61) ≠ 2 := by
    rw [Ne, FiniteField.even_card_iff_char_two]
    simp
  obtain ⟨out, h1, m, h2, h3⟩ := C76_command _ (paley_srg h hF (n := 15) (by simp)) (by norm_num) (by norm_num)
    (by norm_num) (argv := ["61", "30", "14", "15"].map String.toList) (by decide +kernel)
  exact ⟨out, h1, m, h2, h, h3⟩

end TDS
