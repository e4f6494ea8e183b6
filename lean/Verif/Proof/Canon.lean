import Verif.Proof.Pack
import Verif.Proof.Bits
import Verif.Proof.Classify
import Verif.Proof.Exact

/-! Lists of matrices that the exhaustive search shows to be complete. -/

namespace TDS.Fast

open Finset Database

/-- Relabelling so that the first rows are justified to the left. -/
theorem exists_canon {v : Nat} {k l u : Int} {M : Nat → Nat → Int} (h : Arr v k l u M) :
    ∀ n, n ≤ v → ∃ M', Rel v M M' ∧
      ∀ R < n, Spec.LeftJustified v (matOf v M' R) (rowAt v M' R)
  | 0, _ => ⟨M, Rel.refl v M, fun _ h => absurd h (Nat.not_lt_zero _)⟩
  | n + 1, hn => by
    obtain ⟨M1, r1, j1⟩ := exists_canon h n (by omega)
    obtain ⟨M2, r2, e2, j2⟩ := exists_leftJustified (R := n)
      (∑ t ∈ range v, (t : Int) * M1 n t).toNat M1 (r1.arr h) (by omega)
    have hrow : ∀ R < n, rowAt v M2 R = rowAt v M1 R := by
      intro R hR
      have : (matOf v M2 n).getD R [] = (matOf v M1 n).getD R [] := by rw [e2]
      rwa [matOf_getD hR, matOf_getD hR] at this
    refine ⟨M2, r1.trans r2, ?_⟩
    intro R hR
    rcases Nat.lt_succ_iff_lt_or_eq.1 hR with hR | rfl
    · have : matOf v M2 R = matOf v M1 R := by
        show (List.range R).map (rowAt v M2) = (List.range R).map (rowAt v M1)
        apply List.map_congr_left
        intro i hi
        rw [List.mem_range] at hi
        exact hrow i (by omega)
      rw [this, hrow R hR]
      exact j1 R hR
    · exact j2

theorem canon_of_arr {v k l u : Nat} {M : Nat → Nat → Int} (h : Arr v k l u M)
    (hj : ∀ R < v, Spec.LeftJustified v (matOf v M R) (rowAt v M R)) :
    Canon v k l u (fun i j => (M i j).toNat) := by
  have hc : ∀ i j, ((M i j).toNat : Int) = M i j := by
    intro i j
    rcases h.bin i j with e | e <;> rw [e] <;> rfl
  refine ⟨?_, ?_, ?_, ?_, ?_, ?_⟩
  · intro i j
    rcases h.bin i j with e | e <;> simp [e]
  · intro i hi
    simp [h.diag i hi]
  · intro i hi j hj
    simp [h.sym i hi j hj]
  · intro i hi
    have := h.deg i hi
    rw [← Finset.sum_congr rfl (fun t _ => hc i t)] at this
    exact_mod_cast this
  · intro i hi j hj hij
    have := h.inter i hi j hj hij
    rw [← Finset.sum_congr rfl (fun t _ => by rw [← hc i t, ← hc j t])] at this
    have e : (M i j).toNat = 1 ↔ M i j = 1 := by
      rcases h.bin i j with e | e <;> simp [e]
    simp only [e]
    split_ifs at this ⊢ with c
    all_goals exact_mod_cast this
  · intro n i hn hi hr
    have := hj n (by omega) i (i + 1) (by simpa using hn) (by omega) hi (by
      rw [colEq_matOf (by omega) hi]
      intro r hr'
      have := hr r hr'
      rw [← hc r i, ← hc r (i + 1), this])
    rw [rowAt_getD hi, rowAt_getD (by omega)] at this
    exact Int.toNat_le_toNat this

theorem rel_depicts {V : Type*} [Fintype V] [DecidableEq V] {G : SimpleGraph V}
    [DecidableRel G.Adj] {v : Nat} {σ : Fin v ≃ V} {M' : Nat → Nat → Int}
    (h : Rel v (arrayOf G σ) M') : ∃ e : V ≃ Fin v, ∀ a b, G.Adj a b ↔ M' (e a) (e b) = 1 := by
  obtain ⟨τ, hτ, hM⟩ := h
  have hτ' : ∀ n, τ.symm n < v ↔ n < v := by
    intro n
    rw [← hτ (τ.symm n), Equiv.apply_symm_apply]
  let p : Fin v ≃ Fin v :=
    { toFun := fun i => ⟨τ.symm i, (hτ' i).2 i.2⟩
      invFun := fun i => ⟨τ i, (hτ i).2 i.2⟩
      left_inv := fun i => by simp
      right_inv := fun i => by simp }
  refine ⟨σ.symm.trans p, ?_⟩
  intro a b
  have hp : ∀ x, (((σ.symm.trans p) x : Fin v) : ℕ) = τ.symm (σ.symm x : Fin v) := fun x => rfl
  rw [hM, hp, hp, Equiv.apply_symm_apply, Equiv.apply_symm_apply, arrayOf_fin,
    Equiv.apply_symm_apply, Equiv.apply_symm_apply]
  by_cases hab : G.Adj a b <;> simp [hab]

theorem col_congr {B B' : Nat → Nat} : ∀ {n : Nat}, (∀ i < n, B i = B' i) → col B n = col B' n
  | 0, _ => rfl
  | n + 1, h => by
    rw [col, col, h n (by omega), col_congr (fun i hi => h i (by omega))]

theorem spread_eq : ∀ v r, spread v r = col (fun i => (r.testBit (v - 1 - i)).toNat) v
  | 0, r => rfl
  | v + 1, r => by
    show spread v (r / 2) * 256 + r % 2 = _
    rw [spread_eq v, col]
    congr 2
    · apply col_congr
      intro i hi
      show ((r / 2).testBit (v - 1 - i)).toNat = (r.testBit (v + 1 - 1 - i)).toNat
      rw [show v + 1 - 1 - i = v - 1 - i + 1 by omega, Nat.testBit_succ]
    · rw [show v + 1 - 1 - v = 0 by omega, Nat.testBit_zero]
      have := Nat.mod_two_eq_zero_or_one r
      rcases this with e | e <;> simp [e]

theorem eqList_eq : ∀ {a b : List Nat}, eqList a b = true → a = b
  | [], [], _ => rfl
  | [], _ :: _, h => by cases h
  | _ :: _, [], h => by cases h
  | x :: a, y :: b, h => by
    change @Bool.rec (fun _ => Bool) false (eqList a b) (Nat.beq x y) = true at h
    cases e : Nat.beq x y with
    | false => rw [e] at h; cases h
    | true =>
      rw [e] at h
      rw [Nat.eq_of_beq_eq_true e, eqList_eq h]

theorem stored_mem {v : Nat} : ∀ {L : List (List Nat)} {rpre : List Nat}, stored v L rpre = true →
    ∃ rows ∈ L, rpre = (rows.map (spread v)).reverse
  | [], _, h => by cases h
  | rows :: L, rpre, h => by
    change @Bool.rec (fun _ => Bool) (stored v L rpre) true
      (eqList rpre (rows.map (spread v)).reverse) = true at h
    cases e : eqList rpre (rows.map (spread v)).reverse with
    | true => exact ⟨rows, by simp, eqList_eq e⟩
    | false =>
      rw [e] at h
      obtain ⟨r, h1, h2⟩ := stored_mem h
      exact ⟨r, by simp [h1], h2⟩

theorem ones_eq (d : Nat) : ones d = guardBits d := by
  induction d with
  | zero => simp [ones, guardBits, pack]
  | succ d ih => rw [guardBits_succ, ← ih]; rfl

theorem key_lt {m : Nat} (hm : 0 < m) : ∀ l, key m l < m
  | [] => hm
  | _ :: _ => Nat.mod_lt _ hm

theorem Canon.stored {v k l u d m : Nat} {L : List (List Nat)} {B : Nat → Nat → Nat}
    (h : Canon v k l u B) (hv : v ≤ 66) (hd : d ≤ v) (hm : 0 < m)
    (hp : ∀ i < m, part v k l u d m i L = true) :
    ∃ rows ∈ L, ((List.range v).map (cl B v)).reverse = (rows.map (spread v)).reverse := by
  set rpost := ((List.range' d (v - d)).map (cl B d)).reverse with hr
  have := hp (key m rpost) (key_lt hm rpost)
  unfold part at this
  rw [force_eq, force_eq, ones_eq] at this
  have e0 : List.replicate v 1 = ((List.range' 0 (v - 0)).map (cl B 0)).reverse := by
    symm
    rw [List.eq_replicate_iff]
    refine ⟨by simp, ?_⟩
    intro b hb
    rw [List.mem_reverse] at hb
    obtain ⟨j, -, rfl⟩ := List.mem_map.1 hb
    simp [cl, col]
  rw [e0] at this
  have h1 := search_sound h hv _ d 0 (by omega) (by
    exact this)
  rw [zero_add, ← hr] at h1
  rw [Nat.beq_refl] at h1
  have h2 := search_sound h hv _ (v - d) d (by omega) h1
  rw [show d + (v - d) = v by omega] at h2
  exact stored_mem h2

theorem ent_of_stored {v : Nat} {M : Nat → Nat → Int} {rows : List Nat}
    (hb : ∀ i j, M i j = 0 ∨ M i j = 1) (hs : ∀ i < v, ∀ j < v, M i j = M j i)
    (he : ((List.range v).map (cl (fun i j => (M i j).toNat) v)).reverse =
      (rows.map (spread v)).reverse) :
    rows.length = v ∧ ∀ i < v, ∀ j < v, M i j = Spec.ent (bitMat v rows) i j := by
  rw [List.reverse_inj] at he
  have hlen : rows.length = v := by
    have := congrArg List.length he
    simpa using this.symm
  refine ⟨hlen, ?_⟩
  intro i hi j hj
  have h1 : cl (fun i j => (M i j).toNat) v i = spread v (rows.getD i 0) := by
    have := congrArg (fun l => l.getD i 0) he
    rw [List.getD_eq_getElem _ _ (by simpa using hi), List.getD_eq_getElem _ _ (by simp; omega),
      List.getElem_map, List.getElem_map, List.getElem_range] at this
    rw [this, List.getD_eq_getElem _ _ (by omega)]
  rw [spread_eq] at h1
  have h2 := col_inj (fun t => by
      rcases hb t i with e | e <;> simp [e]) (fun t => Bool.toNat_le _) h1 j hj
  dsimp only at h2
  rw [bitMat_ent hlen hi hj, hs i hi j hj]
  rcases hb j i with e' | e' <;> rw [e'] at h2 ⊢
  all_goals cases c : (rows.getD i 0).testBit (v - 1 - j) with
    | false => first | rfl | (rw [c] at h2; cases h2)
    | true => first | rfl | (rw [c] at h2; cases h2)

/-- If all parts succeed, the list is complete. -/
theorem complete_of_part.{w} {v k l u : Nat} (d m : Nat) {L : List (List Nat)} (hv : v ≤ 66)
    (hd : d ≤ v) (hm : 0 < m) (hp : ∀ i < m, part v k l u d m i L = true) :
    Spec.Complete.{w} v k l u (L.map (bitMat v)) := by
  intro V _ _ G _ hG
  have σ : Fin v ≃ V := (Fintype.equivFinOfCardEq hG.card).symm
  have ha := arr_of_srg hG σ
  obtain ⟨M', hr, hj⟩ := exists_canon ha v (le_refl v)
  obtain ⟨rows, hmem, he⟩ := (canon_of_arr (hr.arr ha) hj).stored hv hd hm hp
  obtain ⟨-, h2⟩ := ent_of_stored (hr.arr ha).bin (hr.arr ha).sym he
  obtain ⟨e, hadj⟩ := rel_depicts hr
  refine ⟨_, List.mem_map_of_mem hmem, e, ?_⟩
  intro a b
  rw [hadj, h2 _ (e a).2 _ (e b).2]

/-- If all parts succeed, the list contains all justified matrices. -/
theorem mem_of_part {v k l u : Nat} (d n : Nat) {L : List (List Nat)} (hv : v ≤ 66)
    (hd : d ≤ v) (hn : 0 < n) (hp : ∀ i < n, part v k l u d n i L = true) {m : Mat}
    (h : Spec.IsSRG v k l u m) (hj : Spec.Justified v m) : m ∈ L.map (bitMat v) := by
  have hs : Spec.Square v m := ⟨h.adj.square, h.adj.part.rect⟩
  have ha := arr_of_isSRG h
  obtain ⟨rows, hmem, he⟩ := (canon_of_arr ha (Justified.arr hs hj)).stored hv hd hn hp
  obtain ⟨h1, h2⟩ := ent_of_stored ha.bin ha.sym he
  refine List.mem_map.2 ⟨rows, hmem, ?_⟩
  exact square_ext (bitMat_square h1) hs (fun i hi j hj => (h2 i hi j hj).symm)

/-- The matrix with these rows is justified: the beginnings of consecutive rows up to the diagonal
do not increase. -/
def justBits (v : Nat) (rows : List Nat) : Bool :=
  (List.range (v - 1)).all (fun i =>
    decide ((rows.getD (i + 1) 0) / 2 ^ (v - i) ≤ (rows.getD i 0) / 2 ^ (v - i)))

theorem div_le_div_of_le {a b p q : Nat} (h : a / 2 ^ p ≤ b / 2 ^ p) (hpq : p ≤ q) :
    a / 2 ^ q ≤ b / 2 ^ q := by
  obtain ⟨c, rfl⟩ := Nat.exists_eq_add_of_le hpq
  rw [pow_add, ← Nat.div_div_eq_div_mul, ← Nat.div_div_eq_div_mul]
  exact Nat.div_le_div_right h

theorem div_eq_of_bits {a b p v : Nat} (ha : a < 2 ^ v) (hb : b < 2 ^ v)
    (h : ∀ i, p ≤ i → i < v → a.testBit i = b.testBit i) : a / 2 ^ p = b / 2 ^ p := by
  refine Nat.eq_of_testBit_eq ?_
  intro i
  rw [Nat.testBit_div_two_pow, Nat.testBit_div_two_pow]
  by_cases hi : i + p < v
  · exact h _ (by omega) hi
  · have : 2 ^ v ≤ 2 ^ (i + p) := Nat.pow_le_pow_right (by decide) (by omega)
    rw [Nat.testBit_lt_two_pow (by omega), Nat.testBit_lt_two_pow (by omega)]

theorem justified_of_bits {v : Nat} {rows : List Nat} (hl : rows.length = v)
    (hb : ∀ x ∈ rows, x < 2 ^ v) (hs : ∀ i < v, ∀ j < v,
      Spec.ent (bitMat v rows) i j = Spec.ent (bitMat v rows) j i)
    (h : justBits v rows = true) : Spec.Justified v (bitMat v rows) := by
  unfold justBits at h
  rw [List.all_eq_true] at h
  have hb' : ∀ i, rows.getD i 0 < 2 ^ v := by
    intro i
    by_cases hi : i < rows.length
    · rw [List.getD_eq_getElem _ _ hi]
      exact hb _ (List.getElem_mem hi)
    · rw [List.getD_eq_default _ _ (by omega)]
      exact Nat.two_pow_pos v
  have hmono : ∀ (n i p : Nat), i + n < v → v - i ≤ p →
      (rows.getD (i + n) 0) / 2 ^ p ≤ (rows.getD i 0) / 2 ^ p := by
    intro n
    induction n with
    | zero => intro i p _ _; exact le_refl _
    | succ n ih =>
      intro i p hn hp
      have h1 := h (i + n) (List.mem_range.2 (by omega))
      rw [decide_eq_true_eq] at h1
      exact (div_le_div_of_le h1 (show v - (i + n) ≤ p by omega)).trans (ih i p (by omega) hp)
  intro R hR i j hi hij hj he
  have hsq := bitMat_square hl
  rw [List.length_take, hsq.rows, Nat.min_eq_left hR.le] at hi
  have hbit : ∀ a < v, ∀ b < v, ∀ c < v, Spec.ent (bitMat v rows) a b =
      Spec.ent (bitMat v rows) a c →
      (rows.getD b 0).testBit (v - 1 - a) = (rows.getD c 0).testBit (v - 1 - a) := by
    intro a ha b hb c hc e
    rw [hs a ha b hb, hs a ha c hc, bitMat_ent hl hb ha, bitMat_ent hl hc ha] at e
    revert e
    cases (rows.getD b 0).testBit (v - 1 - a) <;>
      cases (rows.getD c 0).testBit (v - 1 - a) <;> decide
  have htop : (rows.getD i 0) / 2 ^ (v - R) = (rows.getD j 0) / 2 ^ (v - R) := by
    apply div_eq_of_bits (hb' i) (hb' j)
    intro t ht ht'
    have h1 : (bitMat v rows).getD (v - 1 - t) [] ∈ (bitMat v rows).take R := by
      rw [List.getD_eq_getElem _ _ (by rw [hsq.rows]; omega), List.mem_take_iff_getElem]
      exact ⟨v - 1 - t, by rw [hsq.rows]; omega, rfl⟩
    have h2 := hbit (v - 1 - t) (by omega) i (by omega) j hj (he _ h1)
    rwa [show v - 1 - (v - 1 - t) = t by omega] at h2
  have hle := hmono (j - i) i (v - R - 1) (by omega) (by omega)
  rw [show i + (j - i) = j by omega] at hle
  have hd : ∀ x : Nat, x / 2 ^ (v - R - 1) =
      2 * (x / 2 ^ (v - R)) + (x.testBit (v - R - 1)).toNat := by
    intro x
    rw [Nat.testBit_eq_decide_div_mod_eq, show v - R = v - R - 1 + 1 by omega, pow_succ,
      ← Nat.div_div_eq_div_mul, Nat.add_sub_cancel]
    have := Nat.mod_two_eq_zero_or_one (x / 2 ^ (v - R - 1))
    rcases this with e | e <;> simp [e] <;> omega
  rw [hd, hd, htop] at hle
  have e1 : ((bitMat v rows).getD R []).getD j 0 = Spec.ent (bitMat v rows) j R := hs R hR j hj
  have e2 : ((bitMat v rows).getD R []).getD i 0 = Spec.ent (bitMat v rows) i R :=
    hs R hR i (by omega)
  rw [e1, e2, bitMat_ent hl hj hR, bitMat_ent hl (by omega) hR,
    show v - 1 - R = v - R - 1 by omega]
  revert hle
  cases (rows.getD j 0).testBit (v - R - 1) <;> cases (rows.getD i 0).testBit (v - R - 1) <;> simp

end TDS.Fast
