import Verif.Props.Database

/-! C38: what `int` accepts. -/

namespace Spec

/-- A decimal digit and its value. -/
def Digit (c : Char) (d : Nat) : Prop := d < 10 ∧ c.toNat = 48 + d

/-- Decimal digits, possibly with single underscores between them, and their value. -/
inductive Digits : List Char → Nat → Prop
  | one {c d} : Digit c d → Digits [c] d
  | next {s n c d} : Digits s n → Digit c d → Digits (s ++ [c]) (10 * n + d)
  | under {s n c d} : Digits s n → Digit c d → Digits (s ++ ['_', c]) (10 * n + d)

/-- Blank, tab, line feed, vertical tab, form feed or carriage return. -/
def White (c : Char) : Prop := c.toNat = 32 ∨ (9 ≤ c.toNat ∧ c.toNat ≤ 13)

/-- An integer as `int` reads it. -/
def IntLiteral (s : List Char) (n : Int) : Prop :=
  ∃ a sign body b m, s = a ++ sign ++ body ++ b ∧ (∀ c ∈ a, White c) ∧ (∀ c ∈ b, White c) ∧ Digits body m ∧
    (((sign = [] ∨ sign = ['+']) ∧ n = m) ∨ (sign = ['-'] ∧ n = -(m : Int)))

end Spec

namespace TDS

open Spec

theorem isSpace_iff (c : Char) : isSpace c = true ↔ White c := by
  have h : ∀ k : Nat, k < 128 → (c = Char.ofNat k ↔ c.toNat = k) := by
    intro k hk
    have hk' : (Char.ofNat k).toNat = k := by
      have : ∀ k < 128, (Char.ofNat k).toNat = k := by decide
      exact this k hk
    constructor
    · rintro rfl; exact hk'
    · intro h
      rw [← Char.ofNat_toNat c, h]
  have e1 : ' ' = Char.ofNat 32 := rfl
  have e2 : '\t' = Char.ofNat 9 := rfl
  have e3 : '\n' = Char.ofNat 10 := rfl
  have e4 : '\r' = Char.ofNat 13 := rfl
  unfold isSpace White
  simp only [Bool.or_eq_true, decide_eq_true_eq, e1, e2, e3, e4]
  rw [h 32 (by omega), h 9 (by omega), h 10 (by omega), h 13 (by omega), h 11 (by omega), h 12 (by omega)]
  omega

theorem digitVal_iff {c : Char} {d : Nat} : digitVal c = some d ↔ Digit c d := by
  unfold digitVal Digit
  split
  · rw [Option.some.injEq]; omega
  · constructor
    · intro h; cases h
    · omega

theorem digit_under {d : Nat} : ¬ Digit '_' d := by
  rintro ⟨h1, h2⟩
  have : ('_').toNat = 95 := rfl
  omega

/-- Reading part of a number. -/
def runD : Nat → Bool → Str → Option (Nat × Bool)
  | acc, prev, [] => some (acc, prev)
  | acc, prev, c :: t =>
    match digitVal c with
    | some d => runD (acc * 10 + d) true t
    | none => if c = '_' ∧ prev then runD acc false t else none

theorem digitsVal_iff {acc : Nat} {prev : Bool} {s : Str} {n : Nat} :
    digitsVal acc prev s = some n ↔ runD acc prev s = some (n, true) := by
  induction s generalizing acc prev with
  | nil => cases prev <;> simp [digitsVal, runD]
  | cons c t ih =>
    rw [digitsVal, runD]
    cases digitVal c with
    | some d => exact ih
    | none =>
      simp only
      split
      · exact ih
      · simp

theorem runD_append (s t : Str) (acc : Nat) (prev : Bool) :
    runD acc prev (s ++ t) = (runD acc prev s).bind fun p => runD p.1 p.2 t := by
  induction s generalizing acc prev with
  | nil => rfl
  | cons c s ih =>
    rw [List.cons_append, runD, runD]
    cases digitVal c with
    | some d => exact ih _ _
    | none =>
      simp only
      split
      · exact ih _ _
      · rfl

theorem runD_digit {c : Char} {d : Nat} (h : Digit c d) (acc : Nat) (prev : Bool) :
    runD acc prev [c] = some (10 * acc + d, true) := by
  rw [runD, digitVal_iff.2 h]
  simp [runD, mul_comm]

theorem runD_last {c : Char} {acc : Nat} {prev : Bool} {r : Nat × Bool} (h : runD acc prev [c] = some r) :
    (∃ d, Digit c d ∧ r = (10 * acc + d, true)) ∨ (c = '_' ∧ prev = true ∧ r = (acc, false)) := by
  rw [runD] at h
  cases hd : digitVal c with
  | some d =>
    refine Or.inl ⟨d, digitVal_iff.1 hd, ?_⟩
    rw [hd] at h
    simp only [runD, Option.some.injEq] at h
    rw [← h, mul_comm]
  | none =>
    rw [hd] at h
    simp only at h
    split at h
    · rename_i hc
      simp only [runD, Option.some.injEq] at h
      exact Or.inr ⟨hc.1, hc.2, h.symm⟩
    · cases h

theorem runD_iff (s : Str) : ∀ n, runD 0 false s = some (n, true) ↔ Digits s n := by
  intro n
  constructor
  · have key : ∀ k, ∀ s : Str, s.length = k → ∀ n, runD 0 false s = some (n, true) → Digits s n := by
      intro k
      induction k using Nat.strong_induction_on with
      | _ k ih =>
        intro s hk n h
        rcases List.eq_nil_or_concat s with rfl | ⟨s', c, rfl⟩
        · simp [runD] at h
        · rw [List.concat_eq_append] at h hk ⊢
          rw [runD_append] at h
          obtain ⟨⟨a, p⟩, h1, h2⟩ := Option.bind_eq_some_iff.1 h
          rcases runD_last h2 with ⟨d, hd, he⟩ | ⟨-, -, he⟩
          · cases he
            simp only [List.length_append, List.length_singleton] at hk
            cases p with
            | true => exact .next (ih _ (by omega) s' rfl a h1) hd
            | false =>
              rcases List.eq_nil_or_concat s' with rfl | ⟨s'', c', rfl⟩
              · simp only [runD, Option.some.injEq, Prod.mk.injEq] at h1
                obtain ⟨rfl, -⟩ := h1
                simpa using Digits.one hd
              · rw [List.concat_eq_append] at h1 hk ⊢
                rw [runD_append] at h1
                obtain ⟨⟨a', p'⟩, h3, h4⟩ := Option.bind_eq_some_iff.1 h1
                rcases runD_last h4 with ⟨d', -, he⟩ | ⟨rfl, hp, he⟩
                · cases he
                · cases he
                  simp only at hp
                  subst hp
                  simp only [List.length_append, List.length_singleton] at hk
                  have := Digits.under (ih _ (by omega) s'' rfl _ h3) hd
                  simpa using this
          · cases he
    exact key _ s rfl n
  · intro h
    induction h with
    | one hd => simpa using runD_digit hd 0 false
    | next _ hd ih => rw [runD_append, ih]; exact runD_digit hd _ _
    | @under s n c d _ hd ih =>
      rw [runD_append, ih]
      show runD n true ('_' :: [c]) = _
      rw [runD]
      have : digitVal '_' = none := rfl
      rw [this]
      simpa using runD_digit hd n false

theorem Digits.ne_nil {s : Str} {n : Nat} (h : Digits s n) : s ≠ [] := by
  cases h <;> simp

/-- The first and the last character of a number are digits. -/
theorem digits_ends {s : Str} {n : Nat} (h : Digits s n) :
    ∃ c d c' d', s.head? = some c ∧ Digit c d ∧ s.getLast? = some c' ∧ Digit c' d' := by
  induction h with
  | @one c d hd => exact ⟨c, d, c, d, rfl, hd, rfl, hd⟩
  | @next s n c d hs hd ih =>
    obtain ⟨a, x, -, -, h1, h2, -, -⟩ := ih
    exact ⟨a, x, c, d, by rw [List.head?_append, h1]; rfl, h2, by simp, hd⟩
  | @under s n c d hs hd ih =>
    obtain ⟨a, x, -, -, h1, h2, -, -⟩ := ih
    exact ⟨a, x, c, d, by rw [List.head?_append, h1]; rfl, h2, by simp, hd⟩

theorem digit_not_space {c : Char} {d : Nat} (h : Digit c d) : isSpace c = false := by
  rw [Bool.eq_false_iff, Ne, isSpace_iff]
  have := h.1
  have := h.2
  unfold White
  omega

theorem dropWhile_space {a s : Str} (ha : ∀ c ∈ a, isSpace c = true) {c : Char} (hs : s.head? = some c)
    (hc : isSpace c = false) : (a ++ s).dropWhile isSpace = s := by
  induction a with
  | nil =>
    cases s with
    | nil => cases hs
    | cons x t =>
      cases hs
      rw [List.nil_append, List.dropWhile_cons, hc]
      rfl
  | cons x a ih =>
    rw [List.cons_append, List.dropWhile_cons, ha x (by simp), if_pos rfl]
    exact ih fun c h => ha c (List.mem_cons_of_mem _ h)

theorem strip_eq {a s b : Str} (ha : ∀ c ∈ a, isSpace c = true) (hb : ∀ c ∈ b, isSpace c = true) {c c' : Char}
    (hs : s.head? = some c) (hc : isSpace c = false) (hs' : s.getLast? = some c') (hc' : isSpace c' = false) :
    strip (a ++ s ++ b) = s := by
  unfold strip
  have h1 : (a ++ s ++ b).dropWhile isSpace = s ++ b := by
    rw [List.append_assoc]
    exact dropWhile_space ha (by rw [List.head?_append, hs]; rfl) hc
  rw [h1, List.reverse_append]
  rw [dropWhile_space (s := s.reverse) (by simpa using hb) (by rw [List.head?_reverse]; exact hs') hc']
  exact List.reverse_reverse s

theorem strip_spec (s : Str) : ∃ a b, s = a ++ strip s ++ b ∧ (∀ c ∈ a, isSpace c = true) ∧
    ∀ c ∈ b, isSpace c = true := by
  refine ⟨s.takeWhile isSpace, ((s.dropWhile isSpace).reverse.takeWhile isSpace).reverse, ?_, ?_, ?_⟩
  · unfold strip
    rw [List.append_assoc, ← List.reverse_append, List.takeWhile_append_dropWhile, List.reverse_reverse,
      List.takeWhile_append_dropWhile]
  · intro c hc
    exact List.all_eq_true.1 List.all_takeWhile c hc
  · intro c hc
    rw [List.mem_reverse] at hc
    exact List.all_eq_true.1 List.all_takeWhile c hc

/-- **C38.**  `int` reads exactly the integer literals of the grammar above and raises ValueError on all other
strings. -/
theorem C38_parse (s : Str) : (∀ n, parseInt s = .ok n ↔ IntLiteral s n) ∧
    ((∀ n, ¬ IntLiteral s n) → parseInt s = .error .valueErr) := by
  have main : ∀ n, parseInt s = .ok n ↔ IntLiteral s n := by
    intro n
    constructor
    · intro h
      obtain ⟨a, b, hs, ha, hb⟩ := strip_spec s
      have ha' : ∀ c ∈ a, White c := fun c hc => (isSpace_iff c).1 (ha c hc)
      have hb' : ∀ c ∈ b, White c := fun c hc => (isSpace_iff c).1 (hb c hc)
      unfold parseInt at h
      cases hc : strip s with
      | nil => rw [hc] at h; cases h
      | cons c t =>
        rw [hc] at h
        simp only at h
        rw [hc] at hs
        split at h
        · rename_i hm
          subst hm
          cases hd : digitsVal 0 false t with
          | none => rw [hd] at h; cases h
          | some m =>
            rw [hd] at h
            cases h
            exact ⟨a, ['-'], t, b, m, by rw [hs]; simp, ha', hb', (runD_iff _ _).1 (digitsVal_iff.1 hd),
              Or.inr ⟨rfl, rfl⟩⟩
        · cases hd : digitsVal 0 false (if c = '+' then t else c :: t) with
          | none => rw [hd] at h; cases h
          | some m =>
            rw [hd] at h
            cases h
            have hD := (runD_iff _ _).1 (digitsVal_iff.1 hd)
            by_cases hp : c = '+'
            · subst hp
              exact ⟨a, ['+'], t, b, m, by rw [hs]; simp, ha', hb', by simpa using hD,
                Or.inl ⟨Or.inr rfl, rfl⟩⟩
            · rw [if_neg hp] at hD
              exact ⟨a, [], c :: t, b, m, by rw [hs]; simp, ha', hb', hD, Or.inl ⟨Or.inl rfl, rfl⟩⟩
    · rintro ⟨a, sign, body, b, m, rfl, ha, hb, hD, hsign⟩
      have ha' : ∀ c ∈ a, isSpace c = true := fun c hc => (isSpace_iff c).2 (ha c hc)
      have hb' : ∀ c ∈ b, isSpace c = true := fun c hc => (isSpace_iff c).2 (hb c hc)
      obtain ⟨c, d, c', d', h1, h2, h3, h4⟩ := digits_ends hD
      have hv := digitsVal_iff.2 ((runD_iff _ _).2 hD)
      have hlast : (sign ++ body).getLast? = some c' := by rw [List.getLast?_append, h3]; rfl
      have hst : strip (a ++ sign ++ body ++ b) = sign ++ body := by
        rw [List.append_assoc a]
        rcases hsign with ⟨rfl | rfl, -⟩ | ⟨rfl, -⟩
        · exact strip_eq ha' hb' h1 (digit_not_space h2) hlast (digit_not_space h4)
        · exact strip_eq ha' hb' (c := '+') rfl rfl hlast (digit_not_space h4)
        · exact strip_eq ha' hb' (c := '-') rfl rfl hlast (digit_not_space h4)
      unfold parseInt
      rw [hst]
      rcases hsign with ⟨rfl | rfl, rfl⟩ | ⟨rfl, rfl⟩
      · obtain ⟨x, t, rfl⟩ := List.exists_cons_of_ne_nil (Digits.ne_nil hD)
        cases h1
        have e1 : c ≠ '-' := by
          rintro rfl
          have := h2.2
          have : ('-').toNat = 45 := rfl
          omega
        have e2 : c ≠ '+' := by
          rintro rfl
          have := h2.2
          have : ('+').toNat = 43 := rfl
          omega
        simp only [List.nil_append, if_neg e1, if_neg e2, hv]
      · have e1 : ('+' : Char) ≠ '-' := by decide
        simp only [List.cons_append, List.nil_append, if_neg e1, if_true, hv]
      · simp only [List.cons_append, List.nil_append, if_true, hv]
  refine ⟨main, fun h => ?_⟩
  cases hp : parseInt s with
  | ok n => exact absurd ((main n).1 hp) (h n)
  | error e =>
    have : e = .valueErr := by
      unfold parseInt at hp
      split at hp
      · exact (Except.error.inj hp).symm
      · split at hp
        · split at hp
          · cases hp
          · exact (Except.error.inj hp).symm
        · split at hp
          · cases hp
          · exact (Except.error.inj hp).symm
    rw [this]

theorem split_ne_nil (s : Str) : Database.split s ≠ [] := by
  induction s with
  | nil => simp [Database.split]
  | cons c t ih =>
    rw [Database.split]
    split
    · simp
    · split <;> simp

/-- **C33.**  `split('_')` cuts at the underscores. -/
theorem C33_split (s : Str) : (∀ p ∈ Database.split s, '_' ∉ p) ∧
    List.intercalate ['_'] (Database.split s) = s := by
  induction s with
  | nil => simp [Database.split]
  | cons c t ih =>
    rw [Database.split]
    by_cases hc : c = '_'
    · subst hc
      rw [if_pos rfl]
      refine ⟨?_, ?_⟩
      · intro p hp
        rcases List.mem_cons.1 hp with rfl | hp
        · simp
        · exact ih.1 p hp
      · obtain ⟨h, r, hr⟩ := List.exists_cons_of_ne_nil (split_ne_nil t)
        have := ih.2
        rw [hr] at this ⊢
        simp only [List.intercalate, List.intersperse_cons_cons, List.flatten_cons, List.nil_append] at this ⊢
        rw [this]
        rfl
    · rw [if_neg hc]
      obtain ⟨h, r, hr⟩ := List.exists_cons_of_ne_nil (split_ne_nil t)
      rw [hr] at ih ⊢
      refine ⟨?_, ?_⟩
      · intro p hp
        rcases List.mem_cons.1 hp with rfl | hp
        · have := ih.1 h (by simp)
          simp only [List.mem_cons, not_or]
          exact ⟨fun e => hc e.symm, this⟩
        · exact ih.1 p (List.mem_cons_of_mem _ hp)
      · have := ih.2
        cases r with
        | nil => simpa [List.intercalate] using this
        | cons x r =>
          simp only [List.intercalate, List.intersperse_cons_cons, List.flatten_cons] at this ⊢
          rw [← this]
          rfl

theorem mapM_parse_iff (l : List Str) (ns : List Int) :
    l.mapM parseInt = .ok ns ↔ List.Forall₂ IntLiteral l ns := by
  induction l generalizing ns with
  | nil =>
    rw [List.mapM_nil]
    constructor
    · intro h; cases h; exact .nil
    · intro h; cases h; rfl
  | cons s l ih =>
    rw [List.mapM_cons, bind_eq_ok]
    constructor
    · rintro ⟨n, hn, h⟩
      rw [bind_eq_ok] at h
      obtain ⟨ms, hm, h⟩ := h
      cases h
      exact .cons (((C38_parse s).1 n).1 hn) ((ih ms).1 hm)
    · intro h
      cases h with
      | cons h1 h2 =>
        refine ⟨_, ((C38_parse s).1 _).2 h1, ?_⟩
        rw [(ih _).2 h2]
        rfl

/-- **C38.**  Which argument lists the command line reads as four integers. -/
theorem C38_literals (argv : List Str) (v k l u : Int) :
    argv.mapM parseInt = .ok [v, k, l, u] ↔ ∃ a b c d, argv = [a, b, c, d] ∧ IntLiteral a v ∧
      IntLiteral b k ∧ IntLiteral c l ∧ IntLiteral d u := by
  rw [mapM_parse_iff]
  constructor
  · intro h
    cases h with
    | cons h1 h => cases h with
      | cons h2 h => cases h with
        | cons h3 h => cases h with
          | cons h4 h =>
            cases h
            exact ⟨_, _, _, _, rfl, h1, h2, h3, h4⟩
  · rintro ⟨a, b, c, d, rfl, h1, h2, h3, h4⟩
    exact .cons h1 (.cons h2 (.cons h3 (.cons h4 .nil)))

/-- **C33.**  What `extract_vklu` reads from a name: the integers between the underscores behind the first one. -/
theorem C33_extract (s : Str) (ns : List Int) : Database.extractVklu s = .ok ns ↔
    ∃ first parts, List.intercalate ['_'] (first :: parts) = s ∧ (∀ p ∈ first :: parts, '_' ∉ p) ∧
      List.Forall₂ IntLiteral parts ns := by
  have huniq : ∀ parts : List Str, parts ≠ [] → (∀ p ∈ parts, '_' ∉ p) →
      Database.split (List.intercalate ['_'] parts) = parts := by
    intro parts
    induction parts with
    | nil => intro h; exact absurd rfl h
    | cons p parts ih =>
      intro _ hp
      have base : ∀ (p : Str) (t : Str), '_' ∉ p → ∃ h r, Database.split t = h :: r ∧
          Database.split (p ++ t) = (p ++ h) :: r := by
        intro p t hp
        induction p with
        | nil =>
          obtain ⟨h, r, hr⟩ := List.exists_cons_of_ne_nil (split_ne_nil t)
          exact ⟨h, r, hr, hr⟩
        | cons c p ih =>
          obtain ⟨h, r, h1, h2⟩ := ih (fun h => hp (List.mem_cons_of_mem _ h))
          refine ⟨h, r, h1, ?_⟩
          rw [List.cons_append, Database.split, if_neg (fun e => hp (by simp [e])), h2]
          rfl
      cases parts with
      | nil =>
        obtain ⟨h, r, h1, h2⟩ := base p [] (hp p (by simp))
        cases h1
        simpa [List.intercalate] using h2
      | cons q parts =>
        have h0 := ih (by simp) (fun x hx => hp x (List.mem_cons_of_mem _ hx))
        have e : List.intercalate ['_'] (p :: q :: parts) = p ++ '_' :: List.intercalate ['_'] (q :: parts) := by
          simp [List.intercalate]
        obtain ⟨h, r, h1, h2⟩ := base p ('_' :: List.intercalate ['_'] (q :: parts)) (hp p (by simp))
        rw [Database.split, if_pos rfl, h0] at h1
        cases h1
        rw [e, h2, List.append_nil]
  unfold Database.extractVklu
  constructor
  · intro h
    obtain ⟨f, r, hr⟩ := List.exists_cons_of_ne_nil (split_ne_nil s)
    rw [hr] at h
    obtain ⟨h1, h2⟩ := C33_split s
    rw [hr] at h1 h2
    exact ⟨f, r, h2, h1, (mapM_parse_iff _ _).1 h⟩
  · rintro ⟨f, r, rfl, h1, h2⟩
    rw [huniq _ (by simp) h1]
    exact (mapM_parse_iff _ _).2 h2

/-- **C33.**  On all other names it raises ValueError. -/
theorem C33_extract_error (s : Str) (h : ∀ ns, Database.extractVklu s ≠ .ok ns) :
    Database.extractVklu s = .error .valueErr := by
  have key : ∀ l : List Str, (∀ ns, l.mapM parseInt ≠ .ok ns) → l.mapM parseInt = .error .valueErr := by
    intro l
    induction l with
    | nil => intro h; exact absurd rfl (h [])
    | cons s l ih =>
      intro h
      rw [List.mapM_cons]
      by_cases hs : ∃ n, IntLiteral s n
      · obtain ⟨n, hn⟩ := hs
        rw [((C38_parse s).1 n).2 hn, ok_bind]
        rw [ih]
        · rfl
        · intro ns hns
          refine h (n :: ns) ?_
          rw [List.mapM_cons, ((C38_parse s).1 n).2 hn, ok_bind, hns]
          rfl
      · rw [(C38_parse s).2 (fun n hn => hs ⟨n, hn⟩)]
        rfl
  unfold Database.extractVklu at h ⊢
  obtain ⟨f, r, hr⟩ := List.exists_cons_of_ne_nil (split_ne_nil s)
  rw [hr] at h ⊢
  exact key r h

/-- Non-vacuity: a literal with everything, and strings that are none. -/
example : parseInt " \t-0_12\n".toList = .ok (-12) ∧ parseInt "1__2".toList = .error .valueErr ∧
    parseInt "_1".toList = .error .valueErr ∧ parseInt "1_".toList = .error .valueErr ∧
    parseInt "- 1".toList = .error .valueErr ∧ parseInt "".toList = .error .valueErr := by decide +kernel

end TDS
