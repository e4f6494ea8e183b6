import Verif.Props.Split
import Verif.Props.Classify
import Mathlib.Data.List.Sublists

/-! C74: the order in which the results come. -/

namespace TDS

theorem consecutive_flatten {R : Nat} {f : Mat → List Mat} : ∀ {parts : List Mat},
    (∀ m ∈ parts, ∀ x ∈ f m, x.take R = m) → parts.Nodup → ∀ {x y z : Mat},
    [x, y, z].Sublist (parts.map f).flatten → x.take R = z.take R → y.take R = x.take R := by
  intro parts
  induction parts with
  | nil => intro _ _ x y z h; simp at h
  | cons p t ih =>
    intro hf hnd x y z h e
    rw [List.nodup_cons] at hnd
    have hmem : ∀ w ∈ (t.map f).flatten, w.take R ≠ p := by
      intro w hw hp
      obtain ⟨l, hl, hw⟩ := List.mem_flatten.1 hw
      obtain ⟨m, hm, rfl⟩ := List.mem_map.1 hl
      rw [hf m (List.mem_cons_of_mem _ hm) w hw] at hp
      exact hnd.1 (hp ▸ hm)
    rw [List.map_cons, List.flatten_cons, List.sublist_append_iff] at h
    obtain ⟨l₁, l₂, hl, h₁, h₂⟩ := h
    have hp := hf p List.mem_cons_self
    rcases l₁ with _ | ⟨a, _ | ⟨b, _ | ⟨c, l₁⟩⟩⟩
    · simp only [List.nil_append] at hl
      subst hl
      exact ih (fun m hm => hf m (List.mem_cons_of_mem _ hm)) hnd.2 h₂ e
    · simp only [List.cons_append, List.nil_append, List.cons.injEq] at hl
      obtain ⟨rfl, rfl⟩ := hl
      exact absurd (e.symm.trans (hp x (h₁.subset (by simp)))) (hmem z (h₂.subset (by simp)))
    · simp only [List.cons_append, List.nil_append, List.cons.injEq] at hl
      obtain ⟨rfl, rfl, rfl⟩ := hl
      exact absurd (e.symm.trans (hp x (h₁.subset (by simp)))) (hmem z (h₂.subset (by simp)))
    · simp only [List.cons_append, List.cons.injEq] at hl
      obtain ⟨rfl, rfl, -⟩ := hl
      rw [hp x (h₁.subset (by simp)), hp y (h₁.subset (by simp))]

section
variable {v : Nat} {s : Mat} (hs : Spec.Part v s) (h2 : 2 ≤ s.length) (hv : v ≤ 66)
include hs h2 hv

/-- **C74, blocks.**  Let `parts` be the matrices reached after `n` rounds of `advance`.  The results
come in blocks, one for each of these matrices and in their order; the block of `p` consists of the
results that begin with `p`. -/
theorem C74_blocks {n : Nat} (hn : s.length + n < v) {parts out : List Mat}
    (hr : Spec.rounds advance n [s] = .ok parts) (ho : solve s = .ok out) :
    out = (parts.map (fun p => out.filter (fun m => decide (m.take (s.length + n) = p)))).flatten := by
  obtain ⟨parts', outs, out', h1, h3, h4, h5⟩ := C67_split hs h2 hv hn
  rw [hr] at h1
  cases h1
  rw [ho] at h4
  cases h4
  have : parts.mapM solve =
      .ok (parts.map (fun p => out.filter (fun m => decide (m.take (s.length + n) = p)))) :=
    mapM_ok (fun p hp => C67_resume hs h2 hv hn hr ho hp)
  rw [h3] at this
  cases this
  exact h5

/-- **C74, consecutive.**  Results with the same first `R` rows come one after another: if `x` is yielded
before `y` and `y` before `z`, and `x` and `z` begin with the same `R` rows, then so does `y`. -/
theorem C74_consecutive (hlt : s.length < v) {out : List Mat} (ho : solve s = .ok out) {R : Nat}
    {x y z : Mat} (h : [x, y, z].Sublist out) (e : x.take R = z.take R) : y.take R = x.take R := by
  have hpre := fun {m} (hm : m ∈ out) => C67_prefix hs h2 hv hlt ho hm
  have hx := hpre (h.subset (by simp : x ∈ [x, y, z]))
  have hy := hpre (h.subset (by simp : y ∈ [x, y, z]))
  have hz := hpre (h.subset (by simp : z ∈ [x, y, z]))
  rcases Nat.lt_or_ge R s.length with h1 | h1
  · have : ∀ w : Mat, w.take s.length = s → w.take R = s.take R := by
      intro w hw
      rw [← hw, List.take_take, min_eq_left h1.le]
    rw [this x hx.2.2, this y hy.2.2]
  rcases Nat.lt_or_ge R v with h3 | h3
  · have hl : Level v s.length [s] := fun m hm => by rw [List.mem_singleton.1 hm]; exact ⟨hs, rfl⟩
    have hn : s.length + (R - s.length) < v := by omega
    have hr := rounds_eq hv (R - s.length) hl h2 hn.le
    have hnd := level_nodup hv (R - s.length) s.length [s] hl h2 hn.le (by simp)
    have hb := C74_blocks hs h2 hv hn hr ho
    rw [hb] at h
    refine consecutive_flatten ?_ hnd h e
    intro m _ w hw
    have := (List.mem_filter.1 hw).2
    rw [show s.length + (R - s.length) = R by omega] at this
    simpa using this
  · exfalso
    rw [List.take_of_length_le (by omega), List.take_of_length_le (by omega)] at e
    subst e
    rw [solve_eq hs h2 hlt hv] at ho
    cases ho
    have hnd := level_nodup hv (v - s.length) s.length [s]
      (fun m hm => by rw [List.mem_singleton.1 hm]; exact ⟨hs, rfl⟩) h2 (by omega) (by simp)
    have := hnd.sublist h
    simp at this

end

/-- Four rows reached by the search for the parameters (17,8,3,4). -/
def four17 : Mat :=
  [[0, 1, 1, 1, 1, 1, 1, 1, 1, 0, 0, 0, 0, 0, 0, 0, 0],
   [1, 0, 1, 1, 1, 0, 0, 0, 0, 1, 1, 1, 1, 0, 0, 0, 0],
   [1, 1, 0, 0, 0, 1, 1, 0, 0, 1, 1, 0, 0, 1, 1, 0, 0],
   [1, 1, 0, 0, 0, 1, 0, 1, 0, 0, 0, 1, 1, 1, 0, 1, 0]]

/-- **C74, no sorting.**  The rows tried for one matrix are in general neither in increasing nor in
decreasing lexicographic order. -/
theorem C74_unsorted : (∃ s parts, seed 17 8 3 4 = .ok s ∧ Spec.rounds advance 2 [s] = .ok parts ∧
      four17 ∈ parts) ∧
    advance four17 = .ok ([[1, 1, 0, 0, 0, 0, 1, 0, 1, 1, 0, 1, 0, 0, 0, 1, 1],
      [1, 1, 0, 0, 0, 0, 1, 0, 1, 0, 0, 1, 1, 0, 1, 0, 1],
      [1, 1, 0, 0, 0, 0, 0, 1, 1, 1, 0, 1, 0, 0, 1, 0, 1],
      [1, 1, 0, 0, 0, 0, 0, 1, 1, 1, 1, 0, 0, 0, 0, 1, 1]].map (fun r => four17 ++ [r])) := by
  refine ⟨?_, by decide +kernel⟩
  have h : ((seed 17 8 3 4).bind fun s => (Spec.rounds advance 2 [s]).bind fun parts =>
      .ok (decide (four17 ∈ parts))) = .ok true := by decide +kernel
  rcases h1 : seed 17 8 3 4 with e | s
  · rw [h1] at h; cases h
  rw [h1] at h
  simp only [Except.bind] at h
  rcases h3 : Spec.rounds advance 2 [s] with e | parts
  · rw [h3] at h; cases h
  rw [h3] at h
  simp only [Except.ok.injEq, decide_eq_true_eq] at h
  exact ⟨s, parts, rfl, h3, h⟩

open Database in
/-- Non-vacuity of `C74_consecutive`: a search with six results. -/
example : ∃ out, IsOutput 17 8 3 4 out ∧ 6 ≤ out.length := by
  obtain ⟨s, out, h1, h3⟩ := C05_total (v := 17) (by norm_num) (by norm_num) 8 3 4
  have ho : IsOutput 17 8 3 4 out := ⟨s, h1, h3⟩
  have hg : getSolutions modules 17 8 3 4 = .ok (p_17_8_3_4.map (bitMat 17)) :=
    get_of_entry (name := "problem_17_8_3_4") (by unfold entries; simp)
  refine ⟨out, ho, ?_⟩
  have hle := ((C42_distinct hg).subperm fun m hm =>
    C45_found_again (v := 17) (k := 8) (l := 3) (u := 4) hg ho m hm).length_le
  exact le_trans (by decide +kernel) hle

end TDS
