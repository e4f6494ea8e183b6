import Verif.Proof.Relabel
import Verif.Find.Search
import Mathlib.Data.Nat.Bitwise
import Mathlib.Algebra.BigOperators.Intervals
import Mathlib.Tactic.Ring
import Mathlib.Tactic.IntervalCases

/-! Equations for the exhaustive search. -/

namespace TDS.Fast

theorem force_eq (x : Nat) (f : Nat → Bool) : force x f = f x := by cases x <;> rfl

theorem frev_eq (K : List Nat → Bool) (l a : List Nat) : frev K l a = K (l.reverse ++ a) := by
  induction l generalizing a with
  | nil => rfl
  | cons c t ih =>
    show force c (fun c' => frev K t (c' :: a)) = _
    rw [force_eq, ih, List.reverse_cons, List.append_assoc]
    rfl

theorem total_eq (l : List Nat) : total l = l.sum := by
  induction l with
  | nil => rfl
  | cons c t ih =>
    show c + total t = _
    rw [ih, List.sum_cons]

theorem rowGo_cons (G : Nat) (K : List Nat → Bool) (c : Nat) (t : List Nat)
    (slack need pc : Nat) (acc : List Nat) : rowGo G K (c :: t) slack need pc acc = true →
      (Nat.land (slack - c) G = G → rowGo G K t (slack - c) need c (c * 256 :: acc) = true) ∧
      (pc ≠ c → Nat.land (need - c) G = G →
        rowGo G K t slack (need - c) 0 ((c * 256 + 1) :: acc) = true) := by
  intro h
  change @Bool.rec (fun _ => Bool) false
        (@Bool.rec (fun _ => Bool)
          (force (need - c) fun need' =>
            @Bool.rec (fun _ => Bool) true (rowGo G K t slack need' 0 ((c * 256 + 1) :: acc))
              (Nat.beq (Nat.land need' G) G))
          true
          (Nat.beq pc c))
        (force (slack - c) fun slack' =>
          @Bool.rec (fun _ => Bool) true (rowGo G K t slack' need c (c * 256 :: acc))
            (Nat.beq (Nat.land slack' G) G)) = true at h
  rw [force_eq, force_eq] at h
  constructor
  · intro h1
    rw [h1, Nat.beq_refl] at h
    dsimp only at h
    cases e : rowGo G K t (slack - c) need c (c * 256 :: acc) with
    | true => rfl
    | false => rw [e] at h; cases h
  · intro h1 h2
    have e1 : Nat.beq pc c = false := by
      rw [← Bool.not_eq_true]
      exact fun h => h1 (Nat.eq_of_beq_eq_true h)
    rw [e1, h2, Nat.beq_refl] at h
    dsimp only at h
    cases e : rowGo G K t slack (need - c) 0 ((c * 256 + 1) :: acc) with
    | true => rfl
    | false =>
      rw [e] at h
      revert h
      generalize (@Bool.rec (fun _ => Bool) true (rowGo G K t (slack - c) need c (c * 256 :: acc))
        (Nat.beq (Nat.land (slack - c) G) G)) = b
      cases b <;> simp

/-- Sum of the columns with the given bit. -/
def sel (b : Bool) (ps : List (Nat × Bool)) : Nat :=
  (ps.map (fun p => if p.2 = b then p.1 else 0)).sum

/-- Columns with the new row added. -/
def upd (ps : List (Nat × Bool)) : List Nat :=
  ps.map (fun p => if p.2 then p.1 * 256 + 1 else p.1 * 256)

/-- After a zero, equal columns get zeros. -/
def Just : Nat → List (Nat × Bool) → Prop
  | _, [] => True
  | pc, (c, b) :: t => (b = true → pc ≠ c) ∧ Just (if b then 0 else c) t

theorem rowGo_sound (G : Nat) (K : List Nat → Bool) : ∀ (ps : List (Nat × Bool)) (pc : Nat)
    (acc : List Nat), (∀ qs, qs <:+ ps → ∀ b, Nat.land (G + sel b qs) G = G) → Just pc ps →
    rowGo G K (ps.map Prod.fst) (G + sel false ps) (G + sel true ps) pc acc = true →
    K ((upd ps).reverse ++ acc) = true
  | [], _, acc, _, _, h => h
  | (c, b) :: t, pc, acc, hg, hj, h => by
    have hg' : ∀ qs, qs <:+ t → ∀ b, Nat.land (G + sel b qs) G = G :=
      fun qs hq => hg qs (hq.trans (List.suffix_cons _ _))
    obtain ⟨h1, h2⟩ := rowGo_cons G K c (t.map Prod.fst) _ _ pc acc h
    cases b with
    | false =>
      have e1 : G + sel false ((c, false) :: t) - c = G + sel false t := by
        simp [sel]; omega
      have e2 : sel true ((c, false) :: t) = sel true t := by simp [sel]
      rw [e1, e2] at h1
      have := rowGo_sound G K t c (c * 256 :: acc) hg' hj.2 (h1 (hg' t (List.suffix_refl t) false))
      simpa [upd] using this
    | true =>
      have e1 : G + sel true ((c, true) :: t) - c = G + sel true t := by
        simp [sel]; omega
      have e2 : sel false ((c, true) :: t) = sel false t := by simp [sel]
      rw [e1, e2] at h2
      have := rowGo_sound G K t 0 ((c * 256 + 1) :: acc) hg' hj.2
        (h2 (hj.1 rfl) (hg' t (List.suffix_refl t) true))
      simpa [upd] using this

theorem preGo_eq (cur : Nat) (K : Nat → List Nat → Bool) : ∀ (ps : List (Nat × Bool))
    (mask base : Nat) (acc : List Nat),
    (∀ (i : Nat) (h : i < ps.length), Nat.land cur (mask * 256 ^ i) = 0 ↔ (ps[i]).2 = false) →
    preGo cur K (ps.map Prod.fst) mask base acc =
      K (base + sel true ps) ((upd ps).reverse ++ acc)
  | [], _, _, _, _ => rfl
  | (p, b) :: t, mask, base, acc, h => by
    have h0 := h 0 (by simp)
    rw [pow_zero, mul_one] at h0
    have ht : ∀ (i : Nat) (hi : i < t.length), Nat.land cur (mask * 256 * 256 ^ i) = 0 ↔
        (t[i]).2 = false := by
      intro i hi
      have := h (i + 1) (by simpa using hi)
      rw [pow_succ', ← mul_assoc] at this
      simpa using this
    show force (mask * 256) (fun mask' => @Bool.rec (fun _ => Bool)
          (force (base + p) fun base' =>
            preGo cur K (t.map Prod.fst) mask' base' ((p * 256 + 1) :: acc))
          (preGo cur K (t.map Prod.fst) mask' base (p * 256 :: acc))
          (Nat.beq (Nat.land cur mask) 0)) = _
    rw [force_eq, force_eq]
    cases b with
    | false =>
      rw [h0.2 rfl]
      show preGo cur K (t.map Prod.fst) (mask * 256) base (p * 256 :: acc) = _
      rw [preGo_eq cur K t _ _ _ ht]
      simp [sel, upd]
    | true =>
      have e : Nat.beq (Nat.land cur mask) 0 = false := by
        rw [← Bool.not_eq_true]
        intro hb
        have := h0.1 (Nat.eq_of_beq_eq_true hb)
        cases this
      rw [e]
      show preGo cur K (t.map Prod.fst) (mask * 256) (base + p) ((p * 256 + 1) :: acc) = _
      rw [preGo_eq cur K t _ _ _ ht]
      simp [sel, upd, add_assoc]

/-- One row: `ps` are the columns before the diagonal, last first, and `qs` those after it. -/
theorem search_succ {k l u G : Nat} {leaf : List Nat → List Nat → Bool} {d top : Nat}
    {rpre rpost : List Nat} (h : search k l u leaf (d + 1) G top rpre rpost = true) {cur : Nat}
    {ps qs : List (Nat × Bool)} (hpost : rpost.reverse = cur :: qs.map Prod.fst)
    (hpre : rpre = ps.map Prod.fst)
    (hmask : ∀ (i : Nat) (h : i < ps.length),
      Nat.land cur (1 * 256 ^ i) = 0 ↔ (ps[i]).2 = false)
    (htot : target k l u top cur = sel true ps + sel true qs)
    (hg : ∀ rs, rs <:+ qs → ∀ b, Nat.land (G + sel b rs) G = G) (hj : Just 0 qs) :
    search k l u leaf d (G * 256 + 128) (top * 256) (cur * 256 :: upd ps) (upd qs).reverse =
      true := by
  change frev (fun post => @List.rec Nat (fun _ => Bool) true (fun cur post _ =>
        preGo cur (fun base pre' =>
          force (target k l u top cur + G - base) fun need =>
          @Bool.rec (fun _ => Bool) true
            (force (total post + 2 * G - need) fun slack =>
              @Bool.rec (fun _ => Bool) true
                (frev (fun rpre' =>
                  force (top * 256) fun top' =>
                  force (G * 256 + 128) fun G' =>
                  force (cur * 256) fun cur' =>
                  rowGo G (fun rpost' => search k l u leaf d G' top' (cur' :: rpre') rpost')
                    post slack need 0 [])
                  pre' [])
                (Nat.beq (Nat.land slack G) G))
            (Nat.beq (Nat.land need G) G)) rpre 1 0 []) post) rpost [] = true at h
  rw [frev_eq, List.append_nil, hpost] at h
  dsimp only at h
  rw [hpre, preGo_eq cur _ ps 1 0 [] hmask] at h
  rw [force_eq, force_eq] at h
  have e1 : target k l u top cur + G - (0 + sel true ps) = G + sel true qs := by omega
  have e3 : (qs.map Prod.fst).sum = sel true qs + sel false qs := by
    unfold sel
    rw [← List.sum_map_add]
    congr 1
    apply List.map_congr_left
    intro p _
    cases p.2 <;> simp
  have e2 : total (qs.map Prod.fst) + 2 * G - (G + sel true qs) = G + sel false qs := by
    rw [total_eq, e3]; omega
  rw [e1, e2, hg qs (List.suffix_refl _), hg qs (List.suffix_refl _), Nat.beq_refl] at h
  dsimp only at h
  rw [frev_eq, force_eq, force_eq, force_eq] at h
  have := rowGo_sound G _ qs 0 [] hg hj h
  rw [List.append_nil, List.append_nil, List.append_nil, List.reverse_reverse] at this
  exact this

end TDS.Fast
