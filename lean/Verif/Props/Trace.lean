import Verif.Model.Trace
import Verif.Proof.Limit
import Verif.Props.Search

/-! C65: the order in which `solve` searches and yields. -/

namespace Spec

/-- The matrices yielded in a sequence of events. -/
def outs : List TDS.Event → List Matrix
  | [] => []
  | .call _ :: t => outs t
  | .out m :: t => m :: outs t

/-- `m` arises from `s` by steps of `advance`. -/
inductive Reach (s : Matrix) : Matrix → Prop
  | refl : Reach s s
  | step {m m' : Matrix} {ms : List Matrix} : Reach s m → TDS.advance m = .ok ms → m' ∈ ms →
      Reach s m'

end Spec

namespace TDS

theorem outs_append (a b : List Event) : Spec.outs (a ++ b) = Spec.outs a ++ Spec.outs b := by
  induction a with
  | nil => rfl
  | cons e t ih => cases e <;> simp [Spec.outs, ih]

theorem outs_call (l : List Mat) : Spec.outs (l.map Event.call) = [] := by
  induction l with
  | nil => rfl
  | cons m t ih => simpa [Spec.outs] using ih

theorem outs_out (l : List Mat) : Spec.outs (l.map Event.out) = l := by
  induction l with
  | nil => rfl
  | cons m t ih => simpa [Spec.outs] using ih

theorem callAll_snd (lst : List Mat) : (callAll lst).2 = lst.mapM advance := by
  induction lst with
  | nil => rfl
  | cons m t ih =>
    rw [List.mapM_cons, callAll]
    cases h : advance m with
    | error e => rfl
    | ok l =>
      simp only [ok_bind]
      rw [ih]
      cases List.mapM advance t <;> rfl

theorem callAll_outs (lst : List Mat) : Spec.outs (callAll lst).1 = [] := by
  induction lst with
  | nil => rfl
  | cons m t ih =>
    rw [callAll]
    cases h : advance m with
    | error e => rfl
    | ok l => simpa [Spec.outs] using ih

theorem callAll_ok {lst : List Mat} {f : Mat → List Mat} (h : ∀ m ∈ lst, advance m = .ok (f m)) :
    callAll lst = (lst.map Event.call, .ok (lst.map f)) := by
  induction lst with
  | nil => rfl
  | cons m t ih =>
    rw [callAll, h m (by simp)]
    simp only
    rw [ih (fun m' hm' => h m' (by simp [hm']))]
    rfl

theorem levelsTrace_outs (n : Nat) : ∀ lst, solveLevels n lst =
    (levelsTrace n lst).2.map (fun _ => Spec.outs (levelsTrace n lst).1) := by
  induction n with
  | zero => intro lst; cases lst <;> rfl
  | succ n ih =>
    intro lst
    cases lst with
    | nil => rfl
    | cons m0 t =>
      rw [solveLevels, levelsTrace]
      · generalize hl : m0 :: t = lst
        have h1 := callAll_snd (lst.filter (fun m => !solved m))
        have h2 := callAll_outs (lst.filter (fun m => !solved m))
        rw [← h1]
        clear h1
        generalize callAll (lst.filter (fun m => !solved m)) = c at h2 ⊢
        rcases c with ⟨evs, _ | next⟩
        · rfl
        · simp only [ok_bind]
          rw [ih]
          cases (levelsTrace n next.flatten).2 with
          | error e => rfl
          | ok _ =>
            simp only [Except.map, ok_bind, outs_append, outs_out, h2, List.append_nil]
      · intro e; exact absurd e (by simp)
      · intro e; exact absurd e (by simp)

/-- **C65**, the events carry the result: for every matrix, `solve` yields the matrices among the
events, or fails with the exception that ends them. -/
theorem C65_outs (m : Mat) :
    solve m = (solveTrace m).2.map (fun _ => Spec.outs (solveTrace m).1) := by
  unfold solve solveTrace
  cases h : advance m with
  | error e => rfl
  | ok lst =>
    simp only [ok_bind, Spec.outs]
    exact levelsTrace_outs _ lst

/-- The levels up to the `n`-th, one after another. -/
def levels : Nat → List Mat → List Mat
  | 0, _ => []
  | n + 1, lst => lst ++ levels n (nextLevel lst)

theorem levels_nil (n : Nat) : levels n [] = [] := by
  induction n with
  | zero => rfl
  | succ n ih => simpa [levels, nextLevel] using ih

theorem levelsTrace_eq {v : Nat} (hv : v ≤ 66) (n : Nat) : ∀ (R : Nat) (lst : List Mat),
    Level v R lst → 2 ≤ R → R ≤ v → v - R + 1 ≤ n →
    levelsTrace n lst = ((levels (v - R) lst).map Event.call ++
      (nextLevel^[v - R] lst).map Event.out, .ok ()) := by
  induction n with
  | zero => intro R lst _ _ _ hn; omega
  | succ n ih =>
    intro R lst h h2 hR hn
    cases lst with
    | nil => rw [nextLevel_iter_nil, levels_nil]; rfl
    | cons m0 t =>
      rw [levelsTrace]
      · generalize hlst : m0 :: t = lst at h
        have hsol : ∀ m ∈ lst, solved m = decide (R = v) := by
          intro m hm
          obtain ⟨hp, hl⟩ := h m hm
          have hne : m ≠ [] := by rintro rfl; simp at hl; omega
          unfold solved
          rw [part_ncols hp hne, hl]
          rfl
        by_cases hRv : R = v
        · subst hRv
          have h1 : lst.filter solved = lst := by
            rw [List.filter_eq_self]; intro m hm; rw [hsol m hm]; simp
          have h3 : lst.filter (fun m => !solved m) = [] := by
            rw [List.filter_eq_nil_iff]; intro m hm; rw [hsol m hm]; simp
          simp only [h1, h3, callAll]
          rw [Nat.sub_self]
          have : levelsTrace n ([] : List Mat) = ([], .ok ()) := by cases n <;> rfl
          simp [this, levels]
        · have hlt : R < v := by omega
          have h1 : lst.filter solved = [] := by
            rw [List.filter_eq_nil_iff]; intro m hm; rw [hsol m hm]; simpa using hRv
          have h3 : lst.filter (fun m => !solved m) = lst := by
            rw [List.filter_eq_self]; intro m hm; rw [hsol m hm]; simpa using hRv
          simp only [h1, h3]
          rw [callAll_ok (f := adv) (by
            intro m hm
            obtain ⟨hp, hl⟩ := h m hm
            exact advance_eq hp (by omega) (by omega) hv)]
          have hrec := ih (R + 1) (nextLevel lst) (h.next h2 hlt hv) (by omega) (by omega)
            (by omega)
          simp only
          rw [show (lst.map adv).flatten = nextLevel lst from rfl, hrec]
          obtain ⟨k, hk⟩ : ∃ k, v - R = k + 1 := ⟨v - R - 1, by omega⟩
          rw [hk, show v - (R + 1) = k by omega, Function.iterate_succ_apply, levels]
          simp
      · intro e; exact absurd e (by simp)

theorem mem_levels {n : Nat} : ∀ {lst : List Mat} {m : Mat},
    m ∈ levels n lst ↔ ∃ j < n, m ∈ nextLevel^[j] lst := by
  induction n with
  | zero => intro lst m; simp [levels]
  | succ n ih =>
    intro lst m
    rw [levels, List.mem_append, ih]
    constructor
    · rintro (h | ⟨j, hj, h⟩)
      · exact ⟨0, by omega, h⟩
      · exact ⟨j + 1, by omega, h⟩
    · rintro ⟨_ | j, hj, h⟩
      · exact Or.inl h
      · exact Or.inr ⟨j, by omega, h⟩

theorem iter_level {v : Nat} (hv : v ≤ 66) {R : Nat} {lst : List Mat} (h : Level v R lst)
    (h2 : 2 ≤ R) : ∀ j, R + j ≤ v → Level v (R + j) (nextLevel^[j] lst)
  | 0, _ => h
  | j + 1, hj => by
    rw [Function.iterate_succ_apply']
    exact (iter_level hv h h2 j (by omega)).next (by omega) (by omega) hv

theorem levels_sorted {v : Nat} (hv : v ≤ 66) {n : Nat} : ∀ {R : Nat} {lst : List Mat},
    Level v R lst → 2 ≤ R → R + n ≤ v + 1 → lst.Nodup →
    (levels n lst).Pairwise (fun a b => a.length ≤ b.length ∧ a ≠ b) := by
  induction n with
  | zero => intro R lst _ _ _ _; exact List.Pairwise.nil
  | succ n ih =>
    intro R lst h h2 hR hnd
    rw [levels, List.pairwise_append]
    refine ⟨?_, ?_, ?_⟩
    · refine hnd.imp_of_mem ?_
      intro a b ha hb hab
      exact ⟨by rw [(h a ha).2, (h b hb).2], hab⟩
    · by_cases hRv : R < v
      · exact ih (h.next h2 hRv hv) (by omega) (by omega) (nextLevel_nodup h h2 hRv hv hnd)
      · obtain rfl : n = 0 := by omega
        exact List.Pairwise.nil
    · intro a ha b hb
      obtain ⟨j, hj, hb⟩ := mem_levels.1 hb
      have hb' : b ∈ nextLevel^[j + 1] lst := hb
      have := (iter_level hv h h2 (j + 1) (by omega) b hb').2
      have ha' := (h a ha).2
      refine ⟨by omega, ?_⟩
      rintro rfl
      omega

theorem reach_iff {v : Nat} (hv : v ≤ 66) {s : Mat} (hs : Spec.Part v s) (h2 : 2 ≤ s.length)
    {m : Mat} : Spec.Reach s m ↔ ∃ j, s.length + j ≤ v ∧ m ∈ nextLevel^[j] [s] := by
  have hl : Level v s.length [s] := by
    intro m' hm'; rw [List.mem_singleton.1 hm']; exact ⟨hs, rfl⟩
  constructor
  · intro h
    induction h with
    | refl => exact ⟨0, hs.rows, by simp⟩
    | step h ha hm ih =>
      rename_i m1 m2 ms
      obtain ⟨j, hj, hmem⟩ := ih
      obtain ⟨hp, hlen⟩ := iter_level hv hl h2 j hj m1 hmem
      have hlt : m1.length < v := by
        by_contra hge
        have hsol : solved m1 = true := by
          have hne : m1 ≠ [] := by rintro rfl; simp at hlen; omega
          have := hp.rows
          unfold solved
          rw [part_ncols hp hne]
          simp
          omega
        unfold advance at ha
        rw [hsol] at ha
        cases ha
      refine ⟨j + 1, by omega, ?_⟩
      rw [Function.iterate_succ_apply', mem_nextLevel]
      refine ⟨m1, hmem, ?_⟩
      rw [advance_eq hp (by omega) hlt hv] at ha
      cases ha
      exact hm
  · rintro ⟨j, hj, hm⟩
    induction j generalizing m with
    | zero => rw [List.mem_singleton.1 hm]; exact .refl
    | succ j ih =>
      rw [Function.iterate_succ_apply', mem_nextLevel] at hm
      obtain ⟨m1, h1, hm⟩ := hm
      obtain ⟨hp, hlen⟩ := iter_level hv hl h2 j (by omega) m1 h1
      exact .step (ih (by omega) h1) (advance_eq hp (by omega) (by omega) hv) hm

/-- **C65.**  `solve` makes every call of `advance` before it yields anything: its events are first
the calls, one for each unfinished matrix that can be reached, in order of their number of rows and
no two for the same matrix, and then the results. -/
theorem C65_search_first {v : Nat} (hv : v ≤ 66) {s : Mat} (hs : Spec.Part v s)
    (h2 : 2 ≤ s.length) (hlt : s.length < v) :
    ∃ calls out : List Mat, solveTrace s = (calls.map Event.call ++ out.map Event.out, .ok ()) ∧
      solve s = .ok out ∧ calls.Pairwise (fun a b => a.length ≤ b.length ∧ a ≠ b) ∧
      (∀ m, m ∈ calls ↔ Spec.Reach s m ∧ m.length < v) ∧
      (∀ m, m ∈ out ↔ Spec.Reach s m ∧ m.length = v) := by
  have hne : s ≠ [] := by rintro rfl; simp at h2
  have hl : Level v s.length [s] := by
    intro m' hm'; rw [List.mem_singleton.1 hm']; exact ⟨hs, rfl⟩
  have hl' := hl.next h2 hlt hv
  have e : nextLevel [s] = adv s := by simp [nextLevel]
  rw [e] at hl'
  obtain ⟨k, hk⟩ : ∃ k, v - s.length = k + 1 := ⟨v - s.length - 1, by omega⟩
  refine ⟨levels (v - s.length) [s], nextLevel^[v - s.length] [s], ?_, solve_eq hs h2 hlt hv,
    levels_sorted (n := v - s.length) hv hl h2 (by omega) (List.nodup_singleton s), fun m => ?_, fun m => ?_⟩
  · unfold solveTrace
    rw [advance_eq hs h2 hlt hv]
    simp only
    rw [levelsTrace_eq hv _ (s.length + 1) _ hl' (by omega) (by omega)
      (by rw [part_ncols hs hne]; omega)]
    rw [hk, show v - (s.length + 1) = k by omega, Function.iterate_succ_apply, e, levels, e]
    simp
  · rw [mem_levels, reach_iff hv hs h2]
    constructor
    · rintro ⟨j, hj, hm⟩
      have := (iter_level hv hl h2 j (by omega) m hm).2
      exact ⟨⟨j, by omega, hm⟩, by omega⟩
    · rintro ⟨⟨j, hj, hm⟩, hlen⟩
      have := (iter_level hv hl h2 j (by omega) m hm).2
      exact ⟨j, by omega, hm⟩
  · rw [reach_iff hv hs h2]
    constructor
    · intro hm
      exact ⟨⟨_, by omega, hm⟩, by rw [(iter_level hv hl h2 _ (by omega) m hm).2]; omega⟩
    · rintro ⟨⟨j, hj, hm⟩, hlen⟩
      have := (iter_level hv hl h2 j (by omega) m hm).2
      rw [show v - s.length = j by omega]
      exact hm

/-- **C65** for a seed: the first result comes after the last call, whatever the parameters. -/
theorem C65_seed {v : Nat} (hv3 : 3 ≤ v) (hv : v ≤ 66) (k l u : Int) :
    ∃ (s : Mat) (calls out : List Mat), seed v k l u = .ok s ∧
      solveTrace s = (calls.map Event.call ++ out.map Event.out, .ok ()) ∧
      IsOutput v k l u out ∧ s ∈ calls := by
  obtain ⟨calls, out, h1, h2, -, h3, -⟩ := C65_search_first hv
    (seed_part (v := v) (by omega) k l) (by simp) (by simp; omega)
  exact ⟨_, calls, out, seed_eq (by omega) k l u, h1, ⟨_, seed_eq (by omega) k l u, h2⟩,
    (h3 _).2 ⟨.refl, by simp; omega⟩⟩

/-- Non-vacuity: the events for the parameters of the pentagon are three calls and one result. -/
example : (solveTrace [[0, 1, 1, 0, 0], [1, 0, 0, 1, 0]]).1 =
    [.call [[0, 1, 1, 0, 0], [1, 0, 0, 1, 0]],
     .call [[0, 1, 1, 0, 0], [1, 0, 0, 1, 0], [1, 0, 0, 0, 1]],
     .call [[0, 1, 1, 0, 0], [1, 0, 0, 1, 0], [1, 0, 0, 0, 1], [0, 1, 0, 0, 1]],
     .out [[0, 1, 1, 0, 0], [1, 0, 0, 1, 0], [1, 0, 0, 0, 1], [0, 1, 0, 0, 1], [0, 0, 1, 1, 0]]] := by
  decide +kernel

theorem callAll_error {ms : List Mat} {evs : List Event} {e : Err}
    (h : callAll ms = (evs, .error e)) : ∃ pre m, evs = pre ++ [.call m] ∧ advance m = .error e := by
  induction ms generalizing evs with
  | nil => simp [callAll] at h
  | cons m t ih =>
    unfold callAll at h
    cases ha : advance m with
    | error e' =>
      rw [ha] at h
      simp only [Prod.mk.injEq, Except.error.injEq] at h
      exact ⟨[], m, h.1.symm, by rw [ha, h.2]⟩
    | ok l =>
      rw [ha] at h
      simp only [Prod.mk.injEq] at h
      cases hc : (callAll t).2 with
      | ok ls => rw [hc] at h; exact absurd h.2 (by simp [Except.map])
      | error e' =>
        rw [hc] at h
        have he : e' = e := by simpa [Except.map] using h.2
        obtain ⟨pre, m', h1, h2⟩ := ih (evs := (callAll t).1) (by rw [← he, ← hc])
        exact ⟨.call m :: pre, m', by rw [← h.1, h1]; rfl, h2⟩

theorem levelsTrace_error {n : Nat} {lst : List Mat} {e : Err} (hne : e ≠ .fuel)
    (h : (levelsTrace n lst).2 = .error e) :
    ∃ pre m, (levelsTrace n lst).1 = pre ++ [.call m] ∧ advance m = .error e := by
  induction n generalizing lst with
  | zero =>
    cases lst with
    | nil => simp [levelsTrace] at h
    | cons m t =>
      simp only [levelsTrace, Except.error.injEq] at h
      exact absurd h.symm hne
  | succ n ih =>
    cases lst with
    | nil => simp [levelsTrace] at h
    | cons m t =>
      rw [levelsTrace] at h ⊢
      · generalize hc : callAll ((m :: t).filter (fun m => !solved m)) = r at h ⊢
        obtain ⟨evs, r⟩ := r
        cases r with
        | error e' =>
          simp only [Except.error.injEq] at h
          obtain ⟨pre, m', h1, h2⟩ := callAll_error hc
          exact ⟨_ ++ pre, m', by rw [h1, List.append_assoc], by rw [h2, h]⟩
        | ok next =>
          obtain ⟨pre, m', h1, h2⟩ := ih h
          exact ⟨((m :: t).filter solved).map Event.out ++ evs ++ pre, m', by
            simp only
            rw [h1, ← List.append_assoc], h2⟩
      · simp
      · simp

/-- **C65**, exceptions: if the generator ends with an exception, the last event is the call of
`advance` that raised it (`fuel` is the model's step budget, not an exception of the program). -/
theorem C65_error {m : Mat} {e : Err} (hne : e ≠ .fuel) (h : (solveTrace m).2 = .error e) :
    ∃ pre m', (solveTrace m).1 = pre ++ [.call m'] ∧ advance m' = .error e := by
  unfold solveTrace at h ⊢
  cases ha : advance m with
  | error e' =>
    rw [ha] at h
    simp only [Except.error.injEq] at h
    exact ⟨[], m, rfl, by rw [ha, h]⟩
  | ok lst =>
    rw [ha] at h
    obtain ⟨pre, m', h1, h2⟩ := levelsTrace_error hne h
    exact ⟨.call m :: pre, m', by simp only; rw [h1]; rfl, h2⟩

/-- A matrix with one row only: the second row is looked up in vain. -/
example : solveTrace [[0, 1, 0]] = ([.call [[0, 1, 0]]], .error .index) := by decide +kernel

end TDS
