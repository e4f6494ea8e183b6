import Verif.Model.Imports
import Verif.Proof.Basic
import Mathlib.Logic.Relation

/-! Loading modules: facts for C83. -/

namespace Spec

/-- The modules that module `n` asks for: those in its import statements with their packages, and those of
the names that the module does not define. -/
def Asks (tree : List TDS.Imports.File) (n m : List String) : Prop :=
  ∃ f ∈ tree, f.name = n ∧ ∃ st ∈ f.imports, (m ≠ [] ∧ m <+: st.1) ∨
    ∃ g ∈ tree, g.name = st.1 ∧ ∃ x ∈ st.2, x ∉ g.defines ∧ m = st.1 ++ [x]

/-- Module `n` is in the repository, or outside in a package that is not in the repository. -/
def Present (tree : List TDS.Imports.File) (ext : String → Prop) (n : List String) : Prop :=
  (∃ f ∈ tree, f.name = n) ∨ ∃ a t, n = a :: t ∧ (∀ f ∈ tree, f.name ≠ [a]) ∧ ext a

end Spec

namespace TDS

namespace Imports

open Spec Relation

variable {tree : List File} {ext : String → Bool}

/-- Standard library or installed. -/
def outside (ext : String → Bool) (a : String) : Prop := a ∈ std ∨ ext a = true

theorem mem_path {n m : Name} : m ∈ path n ↔ m ≠ [] ∧ m <+: n := by
  induction n generalizing m with
  | nil => simp [path]
  | cons a t ih =>
    rw [path, List.mem_cons, List.mem_map]
    constructor
    · rintro (rfl | ⟨m, hm, rfl⟩)
      · simp
      · exact ⟨by simp, by simpa using (ih.1 hm).2⟩
    · rintro ⟨h1, h2⟩
      obtain ⟨b, s, rfl⟩ := List.exists_cons_of_ne_nil h1
      rw [List.cons_prefix_cons] at h2
      obtain ⟨rfl, h2⟩ := h2
      by_cases hs : s = []
      · subst hs; exact Or.inl rfl
      · exact Or.inr ⟨s, ih.2 ⟨hs, h2⟩, rfl⟩

/-- The modules loaded by module `n`. -/
def succ (tree : List File) (n : Name) : List Name :=
  match tree.find? (fun f => f.name == n) with
  | none => []
  | some f => f.imports.flatMap (targets tree)

theorem find_iff (hnd : (tree.map File.name).Nodup) {n : Name} {f : File} :
    tree.find? (fun f => f.name == n) = some f ↔ f ∈ tree ∧ f.name = n := by
  constructor
  · intro h
    exact ⟨List.mem_of_find?_eq_some h, by simpa using List.find?_some h⟩
  · rintro ⟨h, rfl⟩
    cases hf : tree.find? (fun g => g.name == f.name) with
    | none =>
      rw [List.find?_eq_none] at hf
      exact absurd (by simp) (hf f h)
    | some g =>
      have hg := List.mem_of_find?_eq_some hf
      have hn : g.name = f.name := by simpa using List.find?_some hf
      rw [List.inj_on_of_nodup_map hnd hg h hn]

theorem mem_succ (hnd : (tree.map File.name).Nodup) {n m : Name} : m ∈ succ tree n ↔ Asks tree n m := by
  unfold succ Asks
  cases hf : tree.find? (fun f => f.name == n) with
  | none =>
    rw [List.find?_eq_none] at hf
    simp only [List.not_mem_nil, false_iff]
    rintro ⟨f, h1, h2, -⟩
    exact hf f h1 (by simpa using h2)
  | some f =>
    obtain ⟨h1, h2⟩ := (find_iff hnd).1 hf
    have key : ∀ st, m ∈ targets tree st ↔ (m ≠ [] ∧ m <+: st.1) ∨
        ∃ g ∈ tree, g.name = st.1 ∧ ∃ x ∈ st.2, x ∉ g.defines ∧ m = st.1 ++ [x] := by
      intro st
      unfold targets
      rw [List.mem_append, mem_path]
      refine or_congr_right ?_
      cases hg : tree.find? (fun g => g.name == st.1) with
      | none =>
        rw [List.find?_eq_none] at hg
        simp only [List.not_mem_nil, false_iff]
        rintro ⟨g, h3, h4, -⟩
        exact hg g h3 (by simpa using h4)
      | some g =>
        obtain ⟨h3, h4⟩ := (find_iff hnd).1 hg
        simp only [List.mem_map, List.mem_filter]
        constructor
        · rintro ⟨x, ⟨hx, hd⟩, rfl⟩
          exact ⟨g, h3, h4, x, hx, by simpa using hd, rfl⟩
        · rintro ⟨g', h5, h6, x, hx, hd, rfl⟩
          obtain rfl := List.inj_on_of_nodup_map hnd h3 h5 (h4.trans h6.symm)
          exact ⟨x, ⟨hx, by simpa using hd⟩, rfl⟩
    rw [List.mem_flatMap]
    constructor
    · rintro ⟨st, hst, h⟩
      exact ⟨f, h1, h2, st, hst, (key st).1 h⟩
    · rintro ⟨f', h3, h4, st, hst, h⟩
      obtain rfl := List.inj_on_of_nodup_map hnd h1 h3 (h2.trans h4.symm)
      exact ⟨st, hst, (key st).2 h⟩

open Classical in
theorem load_succ (fuel : Nat) (L : List Name) (n : Name) :
    load tree ext (fuel + 1) L n = if n ∈ L then .ok L
      else if Present tree (outside ext) n then (succ tree n).foldlM (load tree ext fuel) (n :: L)
      else .error .importErr := by
  rw [load.eq_def]
  simp only
  by_cases hL : n ∈ L
  · rw [if_pos (by simpa using hL), if_pos hL]
  · rw [if_neg (by simpa using hL), if_neg hL]
    unfold succ
    cases hf : tree.find? (fun f => f.name == n) with
    | some f =>
      have hp : Present tree (outside ext) n :=
        Or.inl ⟨f, List.mem_of_find?_eq_some hf, by simpa using List.find?_some hf⟩
      rw [if_pos hp]
    | none =>
      rw [List.find?_eq_none] at hf
      have hno : ¬ ∃ f ∈ tree, f.name = n := by
        rintro ⟨f, h1, h2⟩
        exact hf f h1 (by simpa using h2)
      cases n with
      | nil =>
        rw [if_neg]
        rintro (h | ⟨a, t, h, -⟩)
        · exact hno h
        · cases h
      | cons a t =>
        simp only
        by_cases ha : ∃ f ∈ tree, f.name = [a]
        · obtain ⟨f, h1, h2⟩ := ha
          rw [if_pos (by rw [List.any_eq_true]; exact ⟨f, h1, by simpa using h2⟩), if_neg]
          rintro (h | ⟨a', t', h, h3, -⟩)
          · exact hno h
          · cases h
            exact h3 f h1 h2
        · rw [if_neg (by rw [List.any_eq_true]; rintro ⟨f, h1, h2⟩; exact ha ⟨f, h1, by simpa using h2⟩)]
          by_cases ho : outside ext a
          · rw [if_pos (by simpa [outside] using ho), if_pos]
            · rfl
            · exact Or.inr ⟨a, t, rfl, fun f h1 h2 => ha ⟨f, h1, h2⟩, ho⟩
          · rw [if_neg (by simpa [outside] using ho), if_neg]
            rintro (h | ⟨a', t', h, -, h3⟩)
            · exact hno h
            · cases h
              exact ho h3

/-- What loading the modules `ns` does to the loaded modules. -/
structure Grow (tree : List File) (ext : String → Bool) (ns : List Name) (L L' : List Name) : Prop where
  sub : ∀ x ∈ L, x ∈ L'
  mem : ∀ x ∈ ns, x ∈ L'
  new : ∀ x ∈ L', x ∉ L → Present tree (outside ext) x ∧ ∀ y ∈ succ tree x, y ∈ L'
  reach : ∀ x ∈ L', x ∉ L → ∃ n ∈ ns, ReflTransGen (fun a b => b ∈ succ tree a) n x

theorem fold_grow {step : List Name → Name → Res (List Name)}
    (hs : ∀ L n L', step L n = .ok L' → Grow tree ext [n] L L') (ns : List Name) :
    ∀ L L', ns.foldlM step L = .ok L' → Grow tree ext ns L L' := by
  induction ns with
  | nil =>
    intro L L' h
    cases h
    exact ⟨fun x h => h, by simp, fun x h h' => absurd h h', fun x h h' => absurd h h'⟩
  | cons n ns ih =>
    intro L L' h
    rw [List.foldlM_cons, bind_eq_ok] at h
    obtain ⟨L₁, h1, h2⟩ := h
    obtain ⟨a1, a2, a3, a4⟩ := hs _ _ _ h1
    obtain ⟨b1, b2, b3, b4⟩ := ih _ _ h2
    refine ⟨fun x h => b1 x (a1 x h), ?_, ?_, ?_⟩
    · intro x hx
      rcases List.mem_cons.1 hx with rfl | hx
      · exact b1 _ (a2 _ (by simp))
      · exact b2 x hx
    · intro x hx hn
      by_cases h : x ∈ L₁
      · exact ⟨(a3 x h hn).1, fun y hy => b1 y ((a3 x h hn).2 y hy)⟩
      · exact b3 x hx h
    · intro x hx hn
      by_cases h : x ∈ L₁
      · obtain ⟨m, hm, hr⟩ := a4 x h hn
        exact ⟨m, by simp at hm; simp [hm], hr⟩
      · obtain ⟨m, hm, hr⟩ := b4 x hx h
        exact ⟨m, List.mem_cons_of_mem _ hm, hr⟩

theorem load_grow (fuel : Nat) : ∀ L n L', load tree ext fuel L n = .ok L' → Grow tree ext [n] L L' := by
  induction fuel with
  | zero => intro L n L' h; cases h
  | succ fuel ih =>
    intro L n L' h
    rw [load_succ] at h
    split at h
    · rename_i hn
      cases h
      exact ⟨fun x h => h, by simpa using hn, fun x h h' => absurd h h', fun x h h' => absurd h h'⟩
    · split at h
      · rename_i hn hp
        obtain ⟨a1, a2, a3, a4⟩ := fold_grow ih _ _ _ h
        refine ⟨fun x hx => a1 x (List.mem_cons_of_mem _ hx), ?_, ?_, ?_⟩
        · intro x hx
          simp only [List.mem_singleton] at hx
          subst hx
          exact a1 _ (by simp)
        · intro x hx hxL
          by_cases e : x = n
          · subst e; exact ⟨hp, a2⟩
          · exact a3 x hx (by simp [e, hxL])
        · intro x hx hxL
          by_cases e : x = n
          · exact ⟨n, by simp, by rw [e]⟩
          · obtain ⟨m, hm, hr⟩ := a4 x hx (by simp [e, hxL])
            exact ⟨n, by simp, ReflTransGen.head hm hr⟩
      · cases h

/-- Number of files not yet loaded. -/
def left (tree : List File) (L : List Name) : Nat := (tree.filter fun f => !L.contains f.name).length

theorem left_mono {L L' : List Name} (h : ∀ x ∈ L, x ∈ L') : left tree L' ≤ left tree L := by
  unfold left
  rw [← List.countP_eq_length_filter, ← List.countP_eq_length_filter]
  refine List.countP_mono_left ?_
  intro f _ hf
  simp only [Bool.not_eq_true', List.contains_eq_mem, decide_eq_false_iff_not] at hf ⊢
  exact fun hc => hf (h _ hc)

theorem left_lt {L : List Name} {n : Name} (hn : n ∉ L) (hf : ∃ f ∈ tree, f.name = n) :
    left tree (n :: L) < left tree L := by
  obtain ⟨f, h1, rfl⟩ := hf
  unfold left
  have hs : (tree.filter fun g => !(f.name :: L).contains g.name) =
      (tree.filter fun g => !L.contains g.name).filter fun g => !(g.name == f.name) := by
    rw [List.filter_filter]
    congr 1
    funext g
    simp only [List.contains_cons, Bool.not_or]
  rw [hs]
  refine List.length_filter_lt_length_iff_exists.2 ⟨f, ?_, by simp⟩
  rw [List.mem_filter]
  exact ⟨h1, by simpa using hn⟩

/-- A load succeeds, or fails because of a missing module. -/
def Verdict (tree : List File) (ext : String → Bool) (ns : List Name) (r : Res (List Name)) : Prop :=
  (∃ L', r = .ok L') ∨ (r = .error .importErr ∧
    ∃ n ∈ ns, ∃ m, ReflTransGen (fun a b => b ∈ succ tree a) n m ∧ ¬ Present tree (outside ext) m)

theorem fold_verdict {fuel : Nat}
    (hs : ∀ L n, left tree L + 1 ≤ fuel → Verdict tree ext [n] (load tree ext fuel L n)) (ns : List Name) :
    ∀ L, left tree L + 1 ≤ fuel → Verdict tree ext ns (ns.foldlM (load tree ext fuel) L) := by
  induction ns with
  | nil => intro L _; exact Or.inl ⟨L, rfl⟩
  | cons n ns ih =>
    intro L hL
    rw [List.foldlM_cons]
    rcases hs L n hL with ⟨L₁, h1⟩ | ⟨h1, m, hm, x, hr, hx⟩
    · rw [h1, ok_bind]
      have := left_mono (tree := tree) (load_grow _ _ _ _ h1).sub
      rcases ih L₁ (by omega) with h2 | ⟨h2, m, hm, x⟩
      · exact Or.inl h2
      · exact Or.inr ⟨h2, m, List.mem_cons_of_mem _ hm, x⟩
    · rw [h1]
      simp only [List.mem_singleton] at hm
      subst hm
      exact Or.inr ⟨rfl, m, by simp, x, hr, hx⟩

theorem load_verdict (fuel : Nat) : ∀ L n, left tree L + 1 ≤ fuel →
    Verdict tree ext [n] (load tree ext fuel L n) := by
  induction fuel with
  | zero => intro L n h; omega
  | succ fuel ih =>
    intro L n hL
    rw [load_succ]
    split
    · exact Or.inl ⟨L, rfl⟩
    · rename_i hn
      split
      · by_cases hf : ∃ f ∈ tree, f.name = n
        · have := left_lt hn hf
          rcases fold_verdict ih (succ tree n) (n :: L) (by omega) with h | ⟨h, m, hm, x, hr, hx⟩
          · exact Or.inl h
          · exact Or.inr ⟨h, n, by simp, x, ReflTransGen.head hm hr, hx⟩
        · have : succ tree n = [] := by
            unfold succ
            rw [List.find?_eq_none.2]
            intro f h1 h2
            exact hf ⟨f, h1, by simpa using h2⟩
          rw [this]
          exact Or.inl ⟨_, rfl⟩
      · rename_i hp
        exact Or.inr ⟨rfl, n, by simp, n, ReflTransGen.refl, hp⟩

/-- Loading a list of modules into a set of modules that is closed. -/
theorem fold_iff {ns L : List Name} {fuel : Nat} (hf : tree.length + 1 ≤ fuel)
    (hL : ∀ x ∈ L, Present tree (outside ext) x ∧ ∀ y ∈ succ tree x, y ∈ L) :
    ((∃ L', ns.foldlM (load tree ext fuel) L = .ok L') ↔
      ∀ n ∈ ns, ∀ m, ReflTransGen (fun a b => b ∈ succ tree a) n m → Present tree (outside ext) m) ∧
    ((¬ ∃ L', ns.foldlM (load tree ext fuel) L = .ok L') →
      ns.foldlM (load tree ext fuel) L = .error .importErr) := by
  have hleft : left tree L ≤ tree.length := List.length_filter_le _ _
  have hv : Verdict tree ext ns (ns.foldlM (load tree ext fuel) L) :=
    fold_verdict (load_verdict fuel) ns L (by omega)
  have h1 : ∀ L', ns.foldlM (load tree ext fuel) L = .ok L' →
      ∀ n ∈ ns, ∀ m, ReflTransGen (fun a b => b ∈ succ tree a) n m → Present tree (outside ext) m := by
    intro L' h n hn m hr
    obtain ⟨a1, a2, a3, -⟩ := fold_grow (load_grow fuel) _ _ _ h
    have hc : ∀ x ∈ L', Present tree (outside ext) x ∧ ∀ y ∈ succ tree x, y ∈ L' := by
      intro x hx
      by_cases hxL : x ∈ L
      · exact ⟨(hL x hxL).1, fun y hy => a1 y ((hL x hxL).2 y hy)⟩
      · exact a3 x hx hxL
    have : m ∈ L' := by
      induction hr with
      | refl => exact a2 n hn
      | tail _ hs ih => exact (hc _ ih).2 _ hs
    exact (hc m this).1
  constructor
  · refine ⟨fun ⟨L', h⟩ => h1 L' h, fun h => ?_⟩
    rcases hv with h2 | ⟨-, n, hn, m, hr, hm⟩
    · exact h2
    · exact absurd (h n hn m hr) hm
  · intro h
    rcases hv with h2 | ⟨h2, -⟩
    · exact absurd h2 h
    · exact h2

end Imports

end TDS
