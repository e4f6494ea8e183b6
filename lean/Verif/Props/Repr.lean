import Verif.Model.Repr
import Verif.Props.Print

/-! C68: the printed form of a question. -/

namespace Spec

/-- Characters of decimal numbers. -/
def numChar (c : Char) : Bool := c == '-' || (48 ≤ c.toNat && c.toNat ≤ 57)

/-- The maximal stretches of such characters, `cur` being the current one. -/
def stretches (cur : List Char) : List Char → List (List Char)
  | [] => if cur.isEmpty then [] else [cur]
  | c :: t =>
    if numChar c then stretches (cur ++ [c]) t
    else if cur.isEmpty then stretches [] t
    else cur :: stretches [] t

/-- Value of a stretch of digits. -/
def natVal (s : List Char) : Int := s.foldl (fun a c => a * 10 + ((c.toNat : Int) - 48)) 0

/-- Value of a stretch, with an optional sign. -/
def intVal : List Char → Int
  | '-' :: t => -natVal t
  | s => natVal s

/-- The numbers in a text, in order. -/
def numbers (s : List Char) : List Int := (stretches [] s).map intVal

end Spec

namespace TDS

open Spec

namespace Print

theorem stretches_sep {c : Char} (hc : numChar c = false) (a t : Str) : ∀ cur : Str,
    stretches cur (a ++ c :: t) = stretches cur a ++ stretches [] t := by
  induction a with
  | nil =>
    intro cur
    rw [List.nil_append]
    simp only [stretches, hc]
    cases cur <;> simp
  | cons x a ih =>
    intro cur
    rw [List.cons_append, stretches, stretches]
    split
    · exact ih _
    · split
      · exact ih _
      · rw [ih]; rfl

/-- No part of a number. -/
abbrev Plain' (s : Str) : Prop := s.all (fun c => !numChar c) = true

theorem stretches_plain {s : Str} (h : Plain' s) (t : Str) :
    stretches [] (s ++ t) = stretches [] t := by
  induction s with
  | nil => rfl
  | cons c s ih =>
    unfold Plain' at h
    rw [List.all_cons, Bool.and_eq_true] at h
    rw [List.cons_append, stretches, if_neg (by simpa using h.1)]
    exact ih h.2

theorem plain_nil {s : Str} (h : Plain' s) : stretches [] s = [] := by
  have := stretches_plain h []
  rwa [List.append_nil] at this

theorem stretches_word {w : Str} (h : ∀ c ∈ w, numChar c = true) : ∀ cur : Str, cur ++ w ≠ [] →
    stretches cur w = [cur ++ w] := by
  induction w with
  | nil =>
    intro cur hne
    rw [List.append_nil] at hne ⊢
    rw [stretches, if_neg (by simpa using hne)]
  | cons c w ih =>
    intro cur _
    rw [stretches, if_pos (h c List.mem_cons_self),
      ih (fun x hx => h x (List.mem_cons_of_mem _ hx)) _ (by simp)]
    simp

/-- A text that ends with something else than a number. -/
def Closed (s : Str) : Prop := ∀ t, stretches [] (s ++ t) = stretches [] s ++ stretches [] t

theorem closed_snoc (s : Str) {c : Char} (hc : numChar c = false) : Closed (s ++ [c]) := by
  intro t
  rw [List.append_assoc, List.singleton_append, stretches_sep hc, stretches_sep hc]
  simp [stretches]

theorem snoc_eq (s : Str) {c : Char} (hc : numChar c = false) :
    stretches [] (s ++ [c]) = stretches [] s := by
  rw [stretches_sep hc]; simp [stretches]

theorem stretches_blanks (s : Str) (n : Nat) :
    stretches [] (s ++ blanks n) = stretches [] s := by
  induction n generalizing s with
  | zero => rw [blanks, List.replicate_zero, List.append_nil]
  | succ n ih =>
    rw [blanks, List.replicate_succ]
    rw [show s ++ ' ' :: List.replicate n ' ' = (s ++ [' ']) ++ blanks n by simp [blanks], ih,
      snoc_eq _ (by decide)]

theorem blanks_plain (n : Nat) : Plain' (blanks n) := by
  unfold Plain'
  rw [List.all_eq_true]
  intro c hc
  rw [mem_blanks hc]
  decide

theorem closed_blanks (n : Nat) : Closed (blanks n) := by
  intro t
  rw [stretches_plain (blanks_plain n), plain_nil (blanks_plain n)]
  rfl

/-! ### numbers -/

theorem natVal_map (ds : List Nat) (h : ∀ d ∈ ds, d < 10) : ∀ a : Int,
    (ds.map digitChar).foldl (fun a c => a * 10 + ((c.toNat : Int) - 48)) a =
      ds.foldl (fun (a : Int) (d : Nat) => a * 10 + (d : Int)) a := by
  have key : ∀ d < 10, ((digitChar d).toNat : Int) - 48 = d := by decide
  induction ds with
  | nil => intro a; rfl
  | cons d ds ih =>
    intro a
    rw [List.map_cons, List.foldl_cons, List.foldl_cons, key d (h d List.mem_cons_self),
      ih (fun x hx => h x (List.mem_cons_of_mem _ hx))]

theorem cast_foldl (ds : List Nat) : ∀ a : Nat,
    ds.foldl (fun (a : Int) (d : Nat) => a * 10 + (d : Int)) (a : Int) =
      ((ds.foldl (fun a d => a * 10 + d) a : Nat) : Int) := by
  induction ds with
  | nil => intro a; rfl
  | cons d ds ih =>
    intro a
    rw [List.foldl_cons, List.foldl_cons, ← ih]
    push_cast
    rfl

theorem natVal_natStr (n : Nat) : natVal (natStr n) = n := by
  obtain ⟨ds, h1, -, h3, h4⟩ := natStr_eq n
  rw [natVal, h1, natVal_map ds h3, show (0 : Int) = ((0 : Nat) : Int) from rfl, cast_foldl, h4]

theorem natStr_head (n : Nat) : ∃ c t, natStr n = c :: t ∧ c ≠ '-' ∧
    ∀ x ∈ natStr n, numChar x = true := by
  obtain ⟨ds, h1, h2, h3, -⟩ := natStr_eq n
  have key : ∀ d < 10, digitChar d ≠ '-' ∧ numChar (digitChar d) = true := by decide
  cases ds with
  | nil => exact absurd rfl h2
  | cons d ds =>
    refine ⟨digitChar d, ds.map digitChar, h1, (key d (h3 d List.mem_cons_self)).1, ?_⟩
    rw [h1]
    intro x hx
    obtain ⟨e, he, rfl⟩ := List.mem_map.1 hx
    exact (key e (h3 e he)).2

theorem intStr_num (x : Int) : intStr x ≠ [] ∧ (∀ c ∈ intStr x, numChar c = true) ∧
    intVal (intStr x) = x := by
  cases x with
  | ofNat n =>
    obtain ⟨c, t, h1, h2, h3⟩ := natStr_head n
    refine ⟨?_, h3, ?_⟩
    · rw [intStr, h1]; simp
    · have := natVal_natStr n
      rw [intStr, h1] at *
      unfold intVal
      split
      · rename_i e; cases e; exact absurd rfl h2
      · exact this
  | negSucc n =>
    obtain ⟨c, t, h1, h2, h3⟩ := natStr_head (n + 1)
    refine ⟨by rw [intStr]; simp, ?_, ?_⟩
    · intro c hc
      rw [intStr, List.mem_cons] at hc
      rcases hc with rfl | hc
      · decide
      · exact h3 c hc
    · rw [intStr, intVal, natVal_natStr]
      rw [Int.negSucc_eq]
      push_cast
      rfl

theorem stretches_int (x : Int) : stretches [] (intStr x) = [intStr x] := by
  obtain ⟨h1, h2, -⟩ := intStr_num x
  exact stretches_word h2 [] (by simpa using h1)

theorem stretches_fmt (w : Nat) (x : Int) : stretches [] (fmt w x) = [intStr x] := by
  rw [fmt, stretches_plain (blanks_plain _), stretches_int]

theorem numbers_int (x : Int) : numbers (intStr x) = [x] := by
  rw [numbers, stretches_int, List.map_singleton, (intStr_num x).2.2]

/-! ### wrapped lists -/

/-- State while a list is written. -/
structure WInv (p : Nat) (sl : Str × Str) (D : List Str) : Prop where
  str : stretches [] (sl.1 ++ sl.2) = D
  closed : Closed (sl.1 ++ sl.2)
  pre : (sl.1 = [] ∧ ∃ t, sl.2 = blanks p ++ t ∧ (t = [] ∨ ∃ c ∈ t, c ≠ ' ')) ∨
    ∃ t, sl.1 = blanks p ++ t

theorem wrap_extend {p w : Nat} {sl : Str × Str} {D : List Str} (h : WInv p sl D) {word : Str}
    {x : Str} (hw : stretches [] word = [x]) (hc : ∃ c ∈ word, c ≠ ' ') :
    let r := extendLine (blanks p) w sl word
    stretches [] (r.1 ++ r.2) = D ++ [x] ∧
      ((r.1 = [] ∧ ∃ t, r.2 = blanks p ++ t ∧ ∃ c ∈ t, c ≠ ' ') ∨ ∃ t, r.1 = blanks p ++ t) := by
  obtain ⟨s, line⟩ := sl
  obtain ⟨h1, h2, h3⟩ := h
  simp only at h1 h2 h3
  simp only [extendLine]
  split
  · rename_i hlen
    constructor
    · obtain ⟨n, hn⟩ := rstrip_spec line
      have e1 : stretches [] (s ++ rstrip line) = D := by
        rw [← h1]
        conv_rhs => rw [hn, ← List.append_assoc, stretches_blanks]
      have e2 : s ++ rstrip line ++ ['\n'] ++ (blanks p ++ word) =
          (s ++ rstrip line) ++ '\n' :: (blanks p ++ word) := by simp
      rw [e2, stretches_sep (by decide), e1, stretches_plain (blanks_plain p), hw]
    · right
      rcases h3 with ⟨rfl, t, ht, hne⟩ | ⟨t, ht⟩
      · rcases hne with rfl | ⟨c, hct, hcn⟩
        · exact absurd (by rw [ht, List.append_nil]) hlen.2
        · obtain ⟨a, b, rfl⟩ := List.append_of_mem hct
          obtain ⟨t', ht'⟩ := rstrip_pre (c := c) (t := b) hcn (blanks p ++ a)
          refine ⟨a ++ t' ++ ['\n'], ?_⟩
          rw [ht, ← List.append_assoc, ht']
          simp
      · exact ⟨t ++ rstrip line ++ ['\n'], by rw [ht]; simp⟩
  · constructor
    · rw [← List.append_assoc, h2, h1, hw]
    · rcases h3 with ⟨rfl, t, ht, -⟩ | ⟨t, ht⟩
      · obtain ⟨c, hcw, hcn⟩ := hc
        exact Or.inl ⟨rfl, t ++ word, by rw [ht, List.append_assoc],
          c, List.mem_append_right _ hcw, hcn⟩
      · exact Or.inr ⟨t, ht⟩

theorem closed_sep {sep : Str} (hs : Plain' sep) (hne : sep ≠ []) (s : Str) :
    Closed (s ++ sep) ∧ stretches [] (s ++ sep) = stretches [] s := by
  obtain ⟨c, t, rfl⟩ := List.exists_cons_of_ne_nil hne
  have hc : numChar c = false ∧ Plain' t := by
    unfold Plain' at hs ⊢
    rw [List.all_cons, Bool.and_eq_true] at hs
    exact ⟨by simpa using hs.1, hs.2⟩
  constructor
  · intro x
    rw [show s ++ c :: t ++ x = s ++ c :: (t ++ x) by simp, stretches_sep hc.1,
      stretches_sep hc.1, stretches_plain hc.2, plain_nil hc.2, List.append_nil]
  · rw [stretches_sep hc.1, plain_nil hc.2, List.append_nil]

theorem wrap_fold {p w : Nat} {sep : Str} (hs : Plain' sep) (hne : sep ≠ []) (g : Int → Str)
    (hg : ∀ x, stretches [] (g x) = [intStr x]) (hgc : ∀ x, ∃ c ∈ g x, c ≠ ' ') (a : Vec) :
    ∀ {sl : Str × Str} {D : List Str}, WInv p sl D →
    WInv p ((a.map g).foldl (fun sl word => ((extendLine (blanks p) w sl word).1,
      (extendLine (blanks p) w sl word).2 ++ sep)) sl) (D ++ a.map intStr) := by
  induction a with
  | nil => intro sl D h; simpa using h
  | cons x a ih =>
    intro sl D h
    obtain ⟨h1, h2⟩ := wrap_extend (w := w) h (hg x) (hgc x)
    have := ih (sl := ((extendLine (blanks p) w sl (g x)).1,
      (extendLine (blanks p) w sl (g x)).2 ++ sep)) (D := D ++ [intStr x]) ⟨by
        simp only
        rw [← List.append_assoc, (closed_sep hs hne _).2, h1], by
        simp only
        rw [← List.append_assoc]
        exact (closed_sep hs hne _).1, by
        rcases h2 with ⟨e1, t, e2, c, hc, hcn⟩ | h2
        · exact Or.inl ⟨e1, t ++ sep, by simp only; rw [e2, List.append_assoc],
            Or.inr ⟨c, List.mem_append_left _ hc, hcn⟩⟩
        · exact Or.inr h2⟩
    simpa using this

theorem fmt_mark (w : Nat) (x : Int) : ∃ c ∈ fmt w x, c ≠ ' ' := by
  obtain ⟨h1, h2, -⟩ := intStr_num x
  obtain ⟨c, t, e⟩ := List.exists_cons_of_ne_nil h1
  have hc : c ∈ intStr x := by rw [e]; exact List.mem_cons_self
  refine ⟨c, List.mem_append_right _ hc, ?_⟩
  rintro rfl
  exact absurd (h2 _ hc) (by decide)

theorem wrap_spec {p w : Nat} {sep : Str} (hs : Plain' sep) (hne : sep ≠ []) {a : Vec}
    (ha : a ≠ []) (f : Nat) : stretches [] (wrap (blanks p) w sep (a.map (fmt f))) = a.map intStr := by
  have h0 : WInv p ([], blanks p) [] := by
    refine ⟨plain_nil (blanks_plain p), closed_blanks p, Or.inl ⟨rfl, [], by simp, Or.inl rfl⟩⟩
  have h1 := wrap_fold (w := w) hs hne (fmt f) (stretches_fmt f) (fmt_mark f) a.dropLast h0
  have e1 : (a.map (fmt f)).getLastD [] = fmt f (a.getLast ha) := by
    rw [List.getLastD_eq_getLast?, List.getLast?_map, List.getLast?_eq_getLast_of_ne_nil ha]
    rfl
  obtain ⟨h2, h3⟩ := wrap_extend (w := w) h1 (stretches_fmt f (a.getLast ha)) (fmt_mark f _)
  rw [wrap, e1, ← List.map_dropLast]
  generalize hr : extendLine (blanks p) w _ _ = r at h2 h3 ⊢
  have h4 : ∃ t, r.1 ++ r.2 = blanks p ++ t := by
    rcases h3 with ⟨e, t', ht', -⟩ | ⟨t', ht'⟩
    · exact ⟨t', by rw [e, ht']; rfl⟩
    · exact ⟨t' ++ r.2, by rw [ht', List.append_assoc]⟩
  obtain ⟨t, ht⟩ := h4
  have hlen : (blanks p).length = p := by simp [blanks]
  have e2 : (blanks p ++ t).drop (blanks p).length = t := List.drop_left
  rw [ht, stretches_plain (blanks_plain p)] at h2
  rw [ht, e2, show '[' :: t ++ [']'] = ['['] ++ (t ++ [']']) from rfl,
    stretches_plain (by unfold Plain'; decide), snoc_eq _ (by decide), h2]
  simp only [List.nil_append]
  conv_rhs => rw [← List.dropLast_append_getLast ha]
  simp

theorem strVec_spec (a : Vec) : stretches [] (strVec a) = a.map intStr := by
  rw [strVec]
  split
  · rename_i h
    rw [List.isEmpty_iff.1 h]
    decide
  · rename_i h
    exact wrap_spec (by unfold Plain'; decide) (by simp) (by simpa using h) _

theorem listVec_spec (a : Vec) : stretches [] (listVec a) = a.map intStr := by
  rw [listVec]
  split
  · rename_i h
    rw [List.isEmpty_iff.1 h]
    decide
  · rename_i h
    exact wrap_spec (by unfold Plain'; decide) (by simp) (by simpa using h) _

def uInt : Str := "dtype=int".toList
def uEmpty : Str := "array([], dtype=int".toList
def uLocation : Str := " \n    location=".toList
def uLen : Str := " len=".toList
def uQuota : Str := ")\tquota=sum(x)=".toList

theorem cut {s : Str} (hs : Plain' s) (hne : s ≠ []) (a t : Str) :
    stretches [] (a ++ (s ++ t)) = stretches [] a ++ stretches [] t := by
  rw [← List.append_assoc, (closed_sep hs hne a).1, (closed_sep hs hne a).2]

theorem marks_plain : ∀ n, Plain' (marks n)
  | 0 => rfl
  | 1 => rfl
  | n + 2 => by
    have := marks_plain (n + 1)
    unfold Plain' at this ⊢
    rw [marks, List.all_cons, List.all_cons, this]
    · rfl
    · simp

theorem equations_spec (rows : List (Int × Vec)) (t : Str) :
    stretches [] (rows.flatMap (fun p => equationLine p.1 p.2) ++ t) =
      rows.flatMap (fun p => intStr p.1 :: p.2.map intStr) ++ stretches [] t := by
  induction rows with
  | nil => rfl
  | cons p rows ih =>
    rw [List.flatMap_cons, List.flatMap_cons, equationLine]
    rw [show intStr p.1 ++ '\t' :: strVec p.2 ++ ['\n'] ++
        rows.flatMap (fun p => equationLine p.1 p.2) ++ t =
      intStr p.1 ++ (['\t'] ++ (strVec p.2 ++ (['\n'] ++
        (rows.flatMap (fun p => equationLine p.1 p.2) ++ t)))) by simp]
    rw [cut (by decide +kernel) (by simp), cut (by decide +kernel) (by simp), ih, stretches_int,
      strVec_spec]
    simp

theorem reprInt8_spec (a : Vec) (t : Str) :
    stretches [] (reprVec (some tInt8) a ++ (',' :: t)) =
      a.map intStr ++ [['8']] ++ stretches [] t := by
  simp only [reprVec]
  generalize hm : (if lastLine (tArray ++ listVec a ++ [',']) + (tDtype ++ tInt8 ++ [')']).length + 1 > 75
    then '\n' :: blanks 6 else [' ']) = m
  have hp : Plain' m := by
    rw [← hm]
    split
    · decide +kernel
    · decide +kernel
  have e : tArray ++ listVec a ++ [','] ++ m ++ (tDtype ++ tInt8 ++ [')']) ++
      (',' :: t) = tArray ++ (listVec a ++ (([','] ++ m ++ uInt) ++
        (['8'] ++ ([')', ','] ++ t)))) := by
    rw [show tDtype ++ tInt8 = uInt ++ ['8'] by decide +kernel]
    simp
  have hq : Plain' ([','] ++ m ++ uInt) := by
    unfold Plain' at hp ⊢
    rw [List.all_append, List.all_append, hp]
    decide +kernel
  rw [e, stretches_plain (by decide +kernel), cut hq (by simp), cut (by decide +kernel) (by simp),
    listVec_spec]
  rw [show stretches [] ['8'] = [['8']] by decide +kernel, List.append_assoc]

theorem reprInt64_spec (a : Vec) (t : Str) :
    stretches [] (reprVec (if a.isEmpty then some tInt64 else none) a ++ (',' :: t)) =
      a.map intStr ++ (if a.isEmpty then [['6', '4']] else []) ++ stretches [] t := by
  cases a with
  | nil =>
    simp only [List.isEmpty_nil, if_true]
    rw [show reprVec (some tInt64) [] = uEmpty ++ (['6', '4'] ++ [')'])
      by decide +kernel]
    rw [show uEmpty ++ (['6', '4'] ++ [')']) ++ (',' :: t) =
      uEmpty ++ (['6', '4'] ++ ([')', ','] ++ t)) by simp]
    rw [stretches_plain (by decide +kernel), cut (by decide +kernel) (by simp)]
    rfl
  | cons x a =>
    rw [if_neg (by simp), if_neg (by simp), reprVec]
    rw [show tArray ++ listVec (x :: a) ++ [')'] ++ (',' :: t) =
      tArray ++ (listVec (x :: a) ++ ([')', ','] ++ t)) by simp]
    rw [stretches_plain (by decide +kernel), cut (by decide +kernel) (by simp), listVec_spec,
      List.append_nil]

theorem reprAnswer_spec (a : Answer) : stretches [] (reprAnswer a) =
    a.v.map intStr ++ [['8']] ++ a.loc.map intStr ++ (if a.loc.isEmpty then [['6', '4']] else []) ++
      [intStr a.len] := by
  rw [reprAnswer]
  generalize hm : reprVec (if a.loc.isEmpty then some tInt64 else none) a.loc = m
  rw [show tAnswer ++ reprVec (some tInt8) a.v ++ tLocation ++
      m ++ tLen ++ intStr a.len ++ [')'] =
    tAnswer ++ (reprVec (some tInt8) a.v ++ (',' ::
      (uLocation ++ (m ++ (',' :: (uLen ++ (intStr a.len ++ [')']))))))) by
    rw [show tLocation = ',' :: uLocation by decide +kernel,
      show tLen = ',' :: uLen by decide +kernel]
    simp only [List.append_assoc, List.cons_append]]
  rw [stretches_plain (by decide +kernel), reprInt8_spec, stretches_plain (by decide +kernel), ← hm,
    reprInt64_spec, stretches_plain (by decide +kernel), snoc_eq _ (by decide), stretches_int]
  simp only [List.append_assoc]

theorem reprQuestion_spec (Q : Question) : stretches [] (reprQuestion Q) =
    [intStr Q.A.length, intStr (ncols Q.A)] ++
      (Q.b.zip Q.A).flatMap (fun p => intStr p.1 :: p.2.map intStr) ++
      [intStr (ncols Q.A), ['1'], intStr Q.quota] ++ Q.bounds.map intStr ++
      stretches [] (reprAnswer Q.ans) := by
  rw [reprQuestion]
  generalize reprAnswer Q.ans = ra
  generalize hE : (Q.b.zip Q.A).flatMap (fun p => equationLine p.1 p.2) = E
  have e : tHead ++ intStr Q.A.length ++ ['x'] ++ intStr (ncols Q.A) ++ [')', '\n'] ++
      E ++ tX ++ marks (ncols Q.A) ++ tOf ++ intStr (ncols Q.A) ++
      tQuota ++ intStr Q.quota ++ tBnd ++ strVec Q.bounds ++ ['\n'] ++
      ra =
    tHead ++ (intStr Q.A.length ++ (['x'] ++ (intStr (ncols Q.A) ++ ([')', '\n'] ++
      (E ++ ((tX ++ marks (ncols Q.A) ++ tOf) ++ (intStr (ncols Q.A) ++ (['x'] ++
      (['1'] ++ (uQuota ++ (intStr Q.quota ++ (tBnd ++
      (strVec Q.bounds ++ (['\n'] ++ ra)))))))))))))) := by
    rw [show tQuota = ['x'] ++ (['1'] ++ uQuota) by
      decide +kernel]
    simp only [List.append_assoc]
  have hq : Plain' (tX ++ marks (ncols Q.A) ++ tOf) := by
    have := marks_plain (ncols Q.A)
    unfold Plain' at this ⊢
    rw [List.all_append, List.all_append, this]
    decide +kernel
  rw [e, stretches_plain (by decide +kernel), cut (by decide +kernel) (by decide +kernel),
    cut (by decide +kernel) (by decide +kernel), ← hE, equations_spec, stretches_plain hq,
    cut (by decide +kernel) (by decide +kernel), cut (by decide +kernel) (by decide +kernel),
    cut (by decide +kernel) (by decide +kernel), cut (by decide +kernel) (by decide +kernel), stretches_int, stretches_int,
    stretches_int, strVec_spec, show stretches [] ['1'] = [['1']] by decide +kernel]
  simp

theorem val_map (a : Vec) : (a.map intStr).map intVal = a := by
  rw [List.map_map]
  conv_rhs => rw [← List.map_id a]
  exact List.map_congr_left (fun x _ => (intStr_num x).2.2)

end Print

open Print

/-- The numbers in the printed form of a question: its size, each equation with its right hand side
first, the number of unknowns, the 1 of "x1", the quota, the bounds, and the answer with its values,
the 8 of "int8", its locations, the 64 of "int64" if there are none, and its length. -/
theorem C68_numbers (Q : Question) : numbers (reprQuestion Q) =
    [(Q.A.length : Int), (ncols Q.A : Int)] ++ (Q.b.zip Q.A).flatMap (fun p => p.1 :: p.2) ++
      [(ncols Q.A : Int), 1, Q.quota] ++ Q.bounds ++ Q.ans.v ++ [8] ++ Q.ans.loc ++
      (if Q.ans.loc.isEmpty then [64] else []) ++ [Q.ans.len] := by
  have h1 : ((Q.b.zip Q.A).flatMap (fun p => intStr p.1 :: p.2.map intStr)).map intVal =
      (Q.b.zip Q.A).flatMap (fun p => p.1 :: p.2) := by
    rw [List.map_flatMap]
    congr 1
    funext p
    rw [List.map_cons, val_map, (intStr_num p.1).2.2]
  have h2 : (if Q.ans.loc.isEmpty then [['6', '4']] else [] : List Str).map intVal =
      if Q.ans.loc.isEmpty then [64] else [] := by
    split
    · decide +kernel
    · rfl
  rw [numbers, reprQuestion_spec, reprAnswer_spec]
  simp only [List.map_append, List.map_cons, List.map_nil, h1, h2, val_map, (intStr_num _).2.2,
    List.append_assoc]
  rfl

/-- Questions as `Question.__init__` and `Answer.__init__` accept them, with at least one equation. -/
structure _root_.Spec.Shaped (Q : Question) : Prop where
  ne : Q.A ≠ []
  rect : ∀ r ∈ Q.A, r.length = ncols Q.A
  rhs : Q.b.length = Q.A.length
  bounds : Q.bounds.length = ncols Q.A
  ans : Q.ans.v.length = Q.ans.loc.length

theorem rows_inj {n : Nat} : ∀ {b b' : Vec} {A A' : Mat}, b.length = A.length → b'.length = A'.length →
    A.length = A'.length → (∀ r ∈ A, r.length = n) → (∀ r ∈ A', r.length = n) → ∀ {x y : Vec},
    (b.zip A).flatMap (fun p => p.1 :: p.2) ++ x = (b'.zip A').flatMap (fun p => p.1 :: p.2) ++ y →
    b = b' ∧ A = A' ∧ x = y := by
  intro b
  induction b with
  | nil =>
    intro b' A A' h1 h2 h3 _ _ x y h
    have hA : A = [] := List.eq_nil_of_length_eq_zero h1.symm
    subst hA
    have hA' : A' = [] := List.eq_nil_of_length_eq_zero h3.symm
    subst hA'
    have hb' : b' = [] := List.eq_nil_of_length_eq_zero h2
    subst hb'
    exact ⟨rfl, rfl, h⟩
  | cons c b ih =>
    intro b' A A' h1 h2 h3 h4 h5 x y h
    cases A with
    | nil => simp at h1
    | cons r A =>
      cases A' with
      | nil => simp at h3
      | cons r' A' =>
        cases b' with
        | nil => simp at h2
        | cons c' b' =>
          rw [List.zip_cons_cons, List.zip_cons_cons, List.flatMap_cons, List.flatMap_cons,
            List.append_assoc, List.append_assoc, List.cons_append, List.cons_append] at h
          obtain ⟨e1, h⟩ := List.cons.inj h
          obtain ⟨e2, h⟩ := List.append_inj h (by
            rw [h4 r List.mem_cons_self, h5 r' List.mem_cons_self])
          obtain ⟨e3, e4, e5⟩ := ih (by simpa using h1) (by simpa using h2) (by simpa using h3)
            (fun z hz => h4 z (List.mem_cons_of_mem _ hz))
            (fun z hz => h5 z (List.mem_cons_of_mem _ hz)) h
          exact ⟨congrArg₂ _ e1 e3, congrArg₂ _ e2 e4, e5⟩

/-- A question can be read back from its printed form. -/
theorem C68_injective {Q Q' : Question} (h : Shaped Q) (h' : Shaped Q')
    (he : reprQuestion Q = reprQuestion Q') : Q = Q' := by
  have hn : numbers (reprQuestion Q) = numbers (reprQuestion Q') := by rw [he]
  rw [C68_numbers, C68_numbers] at hn
  simp only [List.append_assoc, List.cons_append, List.nil_append] at hn
  obtain ⟨e1, hn⟩ := List.cons.inj hn
  obtain ⟨e2, hn⟩ := List.cons.inj hn
  have e1 : Q.A.length = Q'.A.length := by exact_mod_cast e1
  have e2 : ncols Q.A = ncols Q'.A := by exact_mod_cast e2
  obtain ⟨e3, e4, hn⟩ := rows_inj h.rhs h'.rhs e1 h.rect (fun r hr => by rw [h'.rect r hr, e2]) hn
  obtain ⟨-, hn⟩ := List.cons.inj hn
  obtain ⟨-, hn⟩ := List.cons.inj hn
  obtain ⟨e5, hn⟩ := List.cons.inj hn
  obtain ⟨e6, hn⟩ := List.append_inj hn (by rw [h.bounds, h'.bounds, e2])
  have hl := congrArg List.length hn
  have hv : Q.ans.v.length = Q'.ans.v.length := by
    have a1 := h.ans
    have a2 := h'.ans
    have k1 : Q.ans.loc.isEmpty = true ↔ Q.ans.loc.length = 0 := by
      rw [List.isEmpty_iff, List.length_eq_zero_iff]
    have k2 : Q'.ans.loc.isEmpty = true ↔ Q'.ans.loc.length = 0 := by
      rw [List.isEmpty_iff, List.length_eq_zero_iff]
    simp only [List.length_append, List.length_cons, List.length_nil, apply_ite List.length, k1,
      k2] at hl
    split_ifs at hl <;> omega
  obtain ⟨e7, hn⟩ := List.append_inj hn hv
  obtain ⟨-, hn⟩ := List.cons.inj hn
  obtain ⟨e8, hn⟩ := List.append_inj hn (by rw [← h.ans, ← h'.ans, hv])
  rw [e8] at hn
  obtain ⟨e9, -⟩ := List.cons.inj (List.append_cancel_left hn)
  clear hn hl
  clear he h h'
  obtain ⟨A, b, q, bd, v, loc, len⟩ := Q
  obtain ⟨A', b', q', bd', v', loc', len'⟩ := Q'
  simp only [Question.mk.injEq, Answer.mk.injEq]
  exact ⟨e4, e3, e5, e6, e7, e8, e9⟩

/-- The question of the docstring (/repo/srg/srg.py:116-126). -/
def docQuestion : Question :=
  ⟨[[0, 1], [0, 1], [0, 0], [1, 0], [1, 0], [0, 0]], [4, 4, 0, 4, 4, 0], 8, [4, 4],
    ⟨[0, -1, 0, 0, -1], [0, 4, 8, 12, 16], 20⟩⟩

/-- Its printed form; the docstring puts the quota at the end of the line of the bounds. -/
theorem C68_docstring : reprQuestion docQuestion =
    "b\tA_(6x2)\n4\t[0 1]\n4\t[0 1]\n0\t[0 0]\n4\t[1 0]\n4\t[1 0]\n0\t[0 0]\nx=\t[? ?]_(2x1)\tquota=sum(x)=8\nbnd\t[4 4]\nAnswer(value=array([ 0, -1,  0,  0, -1], dtype=int8), \n    location=array([ 0,  4,  8, 12, 16]), len=20)".toList := by
  decide +kernel

example : Shaped docQuestion :=
  ⟨by decide, by decide, by decide, by decide, by decide⟩

example : numbers (reprQuestion docQuestion) =
    [6, 2, 4, 0, 1, 4, 0, 1, 0, 0, 0, 4, 1, 0, 4, 1, 0, 0, 0, 0, 2, 1, 8, 4, 4, 0, -1, 0, 0, -1, 8,
      0, 4, 8, 12, 16, 20] := by
  rw [C68_numbers]
  decide +kernel

/-- Two questions that differ in one entry only are told apart. -/
example : reprQuestion docQuestion ≠ reprQuestion { docQuestion with quota := 9 } := fun h =>
  absurd (C68_injective ⟨by decide, by decide, by decide, by decide, by decide⟩
    ⟨by decide, by decide, by decide, by decide, by decide⟩ h) (by decide)

/-! Texts as numpy prints them. -/

example : reprVec none ((List.range 20).map Int.ofNat) =
    ("array([ 0,  1,  2,  3,  4,  5,  6,  7,  8,  9, 10, 11, 12, 13, 14, 15, 16,\n" ++
    "       17, 18, 19])").toList := by
  decide +kernel

example : strVec ((List.range 30).map Int.ofNat) =
    ("[ 0  1  2  3  4  5  6  7  8  9 10 11 12 13 14 15 16 17 18 19 20 21 22 23\n" ++
    " 24 25 26 27 28 29]").toList := by
  decide +kernel

example : reprVec (some tInt8) (List.replicate 30 0) =
    ("array([0, 0, 0, 0, 0, 0, 0, 0, 0, 0, 0, 0, 0, 0, 0, 0, 0, 0, 0, 0, 0, 0,\n" ++
    "       0, 0, 0, 0, 0, 0, 0, 0], dtype=int8)").toList := by
  decide +kernel

example : reprVec (some tInt8) (List.replicate 20 0) =
    ("array([0, 0, 0, 0, 0, 0, 0, 0, 0, 0, 0, 0, 0, 0, 0, 0, 0, 0, 0, 0],\n" ++
    "      dtype=int8)").toList := by
  decide +kernel

example : strVec (List.replicate 40 0) =
    ("[0 0 0 0 0 0 0 0 0 0 0 0 0 0 0 0 0 0 0 0 0 0 0 0 0 0 0 0 0 0 0 0 0 0 0 0 0\n" ++
    " 0 0 0]").toList := by
  decide +kernel

example : reprVec (some tInt64) [] = "array([], dtype=int64)".toList := by decide +kernel

end TDS
