import Verif.Props.Shape
import Verif.Model.Main
import Verif.Props.Search
import Verif.Props.Sorter

/-! C33, C38: problem names and the command line. -/

namespace TDS

/-! ### C33 -/

theorem digitVal_char {d : Nat} (h : d < 10) : digitVal (digitChar d) = some d := by
  have : ∀ d < 10, digitVal (digitChar d) = some d := by decide
  exact this d h

theorem digitsVal_map (ds : List Nat) (h : ∀ d ∈ ds, d < 10) (acc : Nat) (prev : Bool)
    (hp : prev = true ∨ ds ≠ []) :
    digitsVal acc prev (ds.map digitChar) = some (ds.foldl (fun a d => a * 10 + d) acc) := by
  induction ds generalizing acc prev with
  | nil =>
    rcases hp with rfl | hp
    · rfl
    · exact absurd rfl hp
  | cons d t ih =>
    rw [List.map_cons, digitsVal, digitVal_char (h d (by simp))]
    exact ih (fun x hx => h x (List.mem_cons_of_mem _ hx)) _ true (Or.inl rfl)

/-- Digits, possibly after a sign: the characters `str` produces. -/
def Plain (s : Str) : Prop := ∀ c ∈ s, isSpace c = false ∧ c ≠ '_' ∧ c ≠ '+'

theorem plain_digit {d : Nat} (h : d < 10) :
    isSpace (digitChar d) = false ∧ digitChar d ≠ '_' ∧ digitChar d ≠ '+' ∧ digitChar d ≠ '-' := by
  have : ∀ d < 10, isSpace (digitChar d) = false ∧ digitChar d ≠ '_' ∧ digitChar d ≠ '+' ∧
      digitChar d ≠ '-' := by decide
  exact this d h

theorem natStr_eq (n : Nat) : ∃ ds : List Nat, natStr n = ds.map digitChar ∧ ds ≠ [] ∧
    (∀ d ∈ ds, d < 10) ∧ ds.foldl (fun a d => a * 10 + d) 0 = n := by
  unfold natStr
  by_cases hn : n = 0
  · rw [if_pos hn]
    exact ⟨[0], by decide, by simp, by simp, by simp [hn]⟩
  · rw [if_neg hn]
    refine ⟨(Nat.digits 10 n).reverse, rfl, ?_, ?_, ?_⟩
    · simpa [Nat.digits_eq_nil_iff_eq_zero] using hn
    · intro d hd
      exact Nat.digits_lt_base (by decide) (List.mem_reverse.1 hd)
    · rw [List.foldl_reverse]
      have := Nat.ofDigits_digits 10 n
      rw [Nat.ofDigits_eq_foldr] at this
      refine Eq.trans ?_ this
      congr 1
      funext d a
      simp only [Nat.cast_id]
      omega

theorem natStr_plain (n : Nat) : Plain (natStr n) ∧ ∀ c ∈ natStr n, c ≠ '-' := by
  obtain ⟨ds, h1, -, h3, -⟩ := natStr_eq n
  rw [h1]
  constructor
  · intro c hc
    obtain ⟨d, hd, rfl⟩ := List.mem_map.1 hc
    have := plain_digit (h3 d hd)
    exact ⟨this.1, this.2.1, this.2.2.1⟩
  · intro c hc
    obtain ⟨d, hd, rfl⟩ := List.mem_map.1 hc
    exact (plain_digit (h3 d hd)).2.2.2

theorem intStr_plain (n : Int) : Plain (intStr n) := by
  cases n with
  | ofNat n => exact (natStr_plain n).1
  | negSucc n =>
    intro c hc
    rcases List.mem_cons.1 hc with rfl | hc
    · decide
    · exact (natStr_plain (n + 1)).1 c hc

theorem dropWhile_of_plain {s : Str} (h : ∀ c ∈ s, isSpace c = false) : s.dropWhile isSpace = s := by
  cases s with
  | nil => rfl
  | cons c t => rw [List.dropWhile_cons_of_neg]; simp [h c (by simp)]

theorem strip_plain {s : Str} (h : ∀ c ∈ s, isSpace c = false) : strip s = s := by
  unfold strip
  rw [dropWhile_of_plain h, dropWhile_of_plain (fun c hc => h c (List.mem_reverse.1 hc)),
    List.reverse_reverse]

/-- `int(str(n)) == n`. -/
theorem parseInt_intStr (n : Int) : parseInt (intStr n) = .ok n := by
  unfold parseInt
  rw [strip_plain (fun c hc => (intStr_plain n c hc).1)]
  cases n with
  | ofNat n =>
    obtain ⟨ds, h1, h2, h3, h4⟩ := natStr_eq n
    have hpl := natStr_plain n
    have hd := digitsVal_map ds h3 0 false (Or.inr h2)
    rw [← h1, h4] at hd
    show (match natStr n with
      | [] => _
      | c :: t => _) = _
    cases hc : natStr n with
    | nil => rw [h1] at hc; simp [h2] at hc
    | cons c t =>
      rw [hc] at hd hpl
      simp only
      rw [if_neg (hpl.2 c (by simp)), if_neg (hpl.1 c (by simp)).2.2, hd]
      rfl
  | negSucc n =>
    obtain ⟨ds, h1, h2, h3, h4⟩ := natStr_eq (n + 1)
    have hd := digitsVal_map ds h3 0 false (Or.inr h2)
    rw [← h1, h4] at hd
    show (if '-' = '-' then _ else _) = _
    rw [if_pos rfl, hd]
    rfl

namespace Database

theorem split_plain {s : Str} (h : ∀ c ∈ s, c ≠ '_') : split s = [s] := by
  induction s with
  | nil => rfl
  | cons c t ih =>
    unfold split
    rw [if_neg (h c (by simp)), ih (fun x hx => h x (List.mem_cons_of_mem _ hx))]

theorem split_append {s t : Str} (h : ∀ c ∈ s, c ≠ '_') : split (s ++ '_' :: t) = s :: split t := by
  induction s with
  | nil => rfl
  | cons c r ih =>
    rw [List.cons_append, split, if_neg (h c (by simp)),
      ih (fun x hx => h x (List.mem_cons_of_mem _ hx))]

end Database

/-- C33: the parameters are recovered from the module name built for them, for all integers. -/
theorem C33_round_trip (v k l u : Int) :
    Database.extractVklu (Database.moduleName v k l u) = .ok [v, k, l, u] := by
  have hp : ∀ n : Int, ∀ c ∈ intStr n, c ≠ '_' := fun n c hc => (intStr_plain n c hc).2.1
  unfold Database.extractVklu Database.moduleName
  have h0 : "problem_".toList = "problem".toList ++ ['_'] := by decide
  have hs : Database.split ("problem_".toList ++ intStr v ++ '_' :: intStr k ++ '_' :: intStr l ++
      '_' :: intStr u) = ["problem".toList, intStr v, intStr k, intStr l, intStr u] := by
    rw [h0]
    simp only [List.append_assoc, List.cons_append, List.nil_append]
    rw [Database.split_append (by decide), Database.split_append (hp v),
      Database.split_append (hp k), Database.split_append (hp l), Database.split_plain (hp u)]
  rw [hs]
  simp only [List.mapM_cons, List.mapM_nil, parseInt_intStr]
  rfl

/-- C33: different parameters have different modules. -/
theorem C33_injective {v k l u v' k' l' u' : Int}
    (h : Database.moduleName v k l u = Database.moduleName v' k' l' u') :
    (v, k, l, u) = (v', k', l', u') := by
  have h1 := C33_round_trip v k l u
  rw [h, C33_round_trip] at h1
  simp only [Except.ok.injEq, List.cons.injEq, and_true] at h1
  obtain ⟨rfl, rfl, rfl, rfl⟩ := h1
  rfl

/-- C33: every module name is listed by `list_problems`, if the module exists, and
`get_solutions` returns the value stored there. -/
theorem C33_get_solutions {ms : Database.Modules} (hnd : (ms.map Prod.fst).Nodup) {v k l u : Int}
    {sols : List Mat} : Database.getSolutions ms v k l u = .ok sols ↔
      (Database.moduleName v k l u, sols) ∈ ms := by
  have huniq : ∀ p ∈ ms, ∀ q ∈ ms, p.1 = q.1 → p = q := List.inj_on_of_nodup_map hnd
  unfold Database.getSolutions
  constructor
  · intro h
    split at h
    · next p hp =>
      have h1 := List.mem_of_find?_eq_some hp
      have h2 := List.find?_some hp
      simp only [decide_eq_true_eq] at h2
      simp only [Except.ok.injEq] at h
      rw [← h2, ← h]
      exact h1
    · simp at h
  · intro h
    split
    · next p hp =>
      have h1 := List.mem_of_find?_eq_some hp
      have h2 := List.find?_some hp
      simp only [decide_eq_true_eq] at h2
      have := huniq _ h1 _ h h2
      rw [this]
    · next hn =>
      rw [List.find?_eq_none] at hn
      have := hn _ h
      simp at this

example : Database.moduleName 10 3 0 1 = "problem_10_3_0_1".toList ∧
    Database.extractVklu "problem_28_12_6_4".toList = .ok [28, 12, 6, 4] ∧
    Database.extractVklu "problem_x".toList = .error .valueErr ∧
    parseInt " +1_0 ".toList = .ok 10 := by
  decide +kernel

/-- The database command cannot start: it imports a module that does not exist. -/
theorem C33_command_fails : Database.dbMain Database.submodules = .error .importErr := by
  decide +kernel

/-! ### C38 -/

/-- C38: arguments that are not exactly four integers are a `ValueError`. -/
theorem C38_arguments (argv : List Str)
    (h : ∀ v k l u : Int, argv.mapM parseInt ≠ .ok [v, k, l, u]) :
    main argv = .error .valueErr := by
  have herr : ∀ s e, parseInt s = .error e → e = .valueErr := by
    intro s e he
    unfold parseInt at he
    split at he
    · simpa using he.symm
    · split at he
      · split at he
        · simp at he
        · simpa using he.symm
      · split at he
        · simp at he
        · simpa using he.symm
  have hm : ∀ (l : List Str) e, l.mapM parseInt = .error e → e = .valueErr := by
    intro l
    induction l with
    | nil => intro e he; simp [pure, Except.pure] at he
    | cons s t ih =>
      intro e he
      rw [List.mapM_cons] at he
      cases hs : parseInt s with
      | error e' =>
        rw [hs] at he
        simp only [bind, Except.bind, Except.error.injEq] at he
        rw [← he]; exact herr s e' hs
      | ok x =>
        rw [hs, ok_bind] at he
        cases ht : t.mapM parseInt with
        | error e' =>
          rw [ht] at he
          simp only [bind, Except.bind, Except.error.injEq] at he
          rw [← he]; exact ih e' ht
        | ok y => rw [ht, ok_bind] at he; simp [pure, Except.pure] at he
  unfold main
  cases hp : argv.mapM parseInt with
  | error e => rw [hm _ e hp]; rfl
  | ok ps =>
    rw [ok_bind]
    rcases ps with _ | ⟨a, _ | ⟨b, _ | ⟨c, _ | ⟨d, _ | ⟨e, t⟩⟩⟩⟩⟩
    · rfl
    · rfl
    · rfl
    · rfl
    · exact absurd hp (h a b c d)
    · rfl

theorem main_eq {argv : List Str} {v k l u : Int} (h : argv.mapM parseInt = .ok [v, k, l, u]) :
    main argv = (do
      Utils.assertSrg v k l u
      let s ← seed v k l u
      let ans ← solve s
      Sorter.sort ans) := by
  unfold main
  rw [h, ok_bind]

/-- C38: the parameters are rejected before searching exactly when they fail the counting
equation. -/
theorem C38_rejects {argv : List Str} {v k l u : Int}
    (h : argv.mapM parseInt = .ok [v, k, l, u]) (hv : 3 ≤ v) (hv' : v ≤ 66) :
    ((v - k - 1) * u ≠ k * (k - l - 1) → main argv = .error .assertion) ∧
    ((v - k - 1) * u = k * (k - l - 1) → ∃ out, main argv = .ok out) := by
  rw [main_eq h]
  constructor
  · intro hne
    have : Utils.assertSrg v k l u = .error .assertion := by
      unfold Utils.assertSrg pyAssert
      rw [if_neg (by simpa using hne)]
    rw [this]; rfl
  · intro he
    rw [(assertSrg_iff v k l u).2 he, ok_bind]
    obtain ⟨n, rfl⟩ := Int.eq_ofNat_of_zero_le (show 0 ≤ v by omega)
    obtain ⟨s, ans, h1, h2⟩ := C05_total (v := n) (by omega) (by omega) k l u
    rw [h1, ok_bind, h2, ok_bind]
    have hsh := C03_shape (by omega) (by omega) (show IsOutput n k l u ans from ⟨s, h1, h2⟩)
    obtain ⟨out, g1, -⟩ := C24_sorted (v := n) (by omega)
      (fun m hm => square_of_part (hsh m hm).1 (hsh m hm).2)
    exact ⟨out, g1⟩

/-- C38, fewer than three points: parameters that pass the counting condition still fail, with
AssertionError for two points (the seed is already finished, which `advance` does not allow), with
IndexError for one or none and with ValueError for negative `v`. -/
theorem C38_small {argv : List Str} {v k l u : Int}
    (h : argv.mapM parseInt = .ok [v, k, l, u]) (he : (v - k - 1) * u = k * (k - l - 1)) :
    (v = 2 → main argv = .error .assertion) ∧ (v = 0 ∨ v = 1 → main argv = .error .index) ∧
    (v < 0 → main argv = .error .valueErr) := by
  rw [main_eq h, (assertSrg_iff v k l u).2 he, ok_bind]
  refine ⟨?_, ?_, ?_⟩
  · rintro rfl
    have hs : ∃ s, seed 2 k l u = .ok s ∧ solved s = true := by
      refine ⟨_, rfl, ?_⟩
      unfold solved ncols setSlice
      simp
    obtain ⟨s, h1, h2⟩ := hs
    rw [h1, ok_bind]
    unfold solve advance
    rw [h2]
    rfl
  · rintro (rfl | rfl) <;> rfl
  · intro hv
    have : seed v k l u = .error .valueErr := by
      unfold seed
      rw [if_pos hv]
    rw [this]
    rfl

/-- A single edge is strongly regular and its parameters are accepted, but the program does not
find it. -/
theorem C38_small_missed : Spec.IsSRG 2 1 0 0 [[0, 1], [1, 0]] ∧ Utils.assertSrg 2 1 0 0 = .ok () ∧
    (seed 2 1 0 0).bind solve = .error .assertion :=
  ⟨⟨⟨⟨by decide, by unfold Spec.Bin; decide, by decide⟩, rfl, ⟨by decide, by decide⟩⟩, by decide,
    by decide⟩, by decide, by decide +kernel⟩

/-- C38: the printed matrices are exactly those the search yields, in nondecreasing order. -/
theorem C38_output {argv : List Str} {v : Nat} {k l u : Int}
    (h : argv.mapM parseInt = .ok [(v : Int), k, l, u]) (hv : 3 ≤ v) (hv' : v ≤ 66) {out : List Mat}
    (ho : main argv = .ok out) : ∃ s ans, seed v k l u = .ok s ∧ solve s = .ok ans ∧
      out.Perm ans ∧ out.Nodup ∧ out.Pairwise (fun a b => ¬ Spec.UpperLT v b a) := by
  rw [main_eq h] at ho
  obtain ⟨s, ans, h1, h2⟩ := C05_total hv hv' k l u
  rw [bind_eq_ok] at ho
  obtain ⟨-, -, ho⟩ := ho
  rw [h1, ok_bind, h2, ok_bind] at ho
  have hio : IsOutput v k l u ans := ⟨s, h1, h2⟩
  have hsh := C03_shape hv hv' hio
  obtain ⟨out', g1, g2, g3⟩ := C24_sorted (v := v) (by omega)
    (fun m hm => square_of_part (hsh m hm).1 (hsh m hm).2)
  rw [g1] at ho
  simp only [Except.ok.injEq] at ho
  subst ho
  exact ⟨s, ans, h1, h2, g2, g2.nodup_iff.2 (C04_nodup hv hv' hio), g3⟩

/-- C38: the order is strictly increasing. -/
theorem C38_increasing {argv : List Str} {v : Nat} {k l u : Int}
    (h : argv.mapM parseInt = .ok [(v : Int), k, l, u]) (hv : 3 ≤ v) (hv' : v ≤ 66) {out : List Mat}
    (ho : main argv = .ok out) : out.Pairwise (fun a b => Spec.UpperLT v a b) := by
  obtain ⟨s, ans, h1, h2, hp, hnd, hs⟩ := C38_output h hv hv' ho
  have hst := C03_general hv hv' (show IsOutput v k l u ans from ⟨s, h1, h2⟩)
  have hboth := hs.and hnd
  refine hboth.imp_of_mem ?_
  intro a b ha hb hab
  obtain ⟨a1, a2, a3, a4, a5, -⟩ := hst a (hp.mem_iff.1 ha)
  obtain ⟨b1, b2, b3, b4, b5, -⟩ := hst b (hp.mem_iff.1 hb)
  have sa := square_of_part a1 a2
  have sb := square_of_part b1 b2
  rcases Sorter.upper_trichotomy sa sb with h6 | h6 | h6
  · exact h6
  · refine absurd (square_ext sa sb ?_) hab.2
    intro i hi j hj
    rcases Nat.lt_trichotomy i j with hlt | rfl | hgt
    · exact h6 i j hlt hj
    · by_cases hne : i = 1
      · subst hne
        rw [a3, Except.ok.injEq] at b3
        have e : ∀ m : Mat, m.length = v → Spec.ent m 1 1 = Spec.ent (m.take 2) 1 1 := by
          intro m hm
          unfold Spec.ent
          rw [List.getD_eq_getElem m _ (by omega),
            List.getD_eq_getElem (m.take 2) _ (by simp; omega)]
          simp
        rw [e a a2, e b b2, b3]
      · rw [a5 i hi hne, b5 i hi hne]
    · rw [a4 i hi j hj, b4 i hi j hj]; exact h6 j i hgt hi
  · exact absurd h6 hab.1

example : main (["5", "2", "0", "1"].map String.toList) = .ok [pentagon] ∧
    main (["5", "2", "0", "2"].map String.toList) = .error .assertion ∧
    main (["5", "2", "0"].map String.toList) = .error .valueErr := by
  decide +kernel

end TDS
