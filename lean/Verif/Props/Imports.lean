import Verif.Proof.Imports
import Verif.Model.DbMain
import Verif.Model.Modules

/-!
C83: which parts of the program can be started.

The set of packages that are installed besides the standard library is arbitrary.
-/

namespace TDS

open Spec Imports Relation

/-- **C83.**  An import succeeds exactly if everything asked for, directly or indirectly, is there.  Otherwise it
ends with ImportError. -/
theorem C83_import {tree : List File} (hnd : (tree.map File.name).Nodup) (ext : String → Bool) (n : Imports.Name) :
    ((∃ L, importModule tree ext n = .ok L) ↔ ∀ p, p ≠ [] → p <+: n → ∀ m, ReflTransGen (Asks tree) p m →
      Present tree (fun a => a ∈ std ∨ ext a = true) m) ∧
    ((¬ ∃ L, importModule tree ext n = .ok L) → importModule tree ext n = .error .importErr) := by
  obtain ⟨h1, h2⟩ := fold_iff (tree := tree) (ext := ext) (ns := path n) (L := []) (fuel := tree.length + 2)
    (by omega) (by simp)
  have e : (fun a b => b ∈ succ tree a) = Asks tree := by
    funext a b
    exact propext (mem_succ hnd)
  rw [e] at h1
  refine ⟨h1.trans ?_, h2⟩
  constructor
  · intro h p hp hpn
    exact h p (mem_path.2 ⟨hp, hpn⟩)
  · intro h p hp
    exact h p (mem_path.1 hp).1 (mem_path.1 hp).2

/-- Heads of the modules in `L` that are neither in the repository nor in the standard library. -/
def foreign (tree : List File) (L : List Imports.Name) : List String :=
  (L.filter fun n => !tree.any fun f => f.name == n).filterMap fun n =>
    match n with
    | [] => none
    | a :: _ => if std.contains a then none else some a

theorem fold_foreign {tree : List File} {ns : List Imports.Name}
    {L : List Imports.Name} {H : List String}
    (h : ns.foldlM (load tree (fun _ => true) (tree.length + 2)) [] = .ok L)
    (hH : foreign tree L = H) (ext : String → Bool) :
    (∃ L', ns.foldlM (load tree ext (tree.length + 2)) [] = .ok L') ↔ ∀ a ∈ H, ext a = true := by
  subst hH
  have hg : Grow tree (fun _ => true) ns [] L := fold_grow (load_grow _) _ _ _ h
  have hp : ∀ m ∈ L, (Present tree (outside ext) m ↔
      ∀ a t, m = a :: t → (¬ ∃ f ∈ tree, f.name = m) → a ∈ std ∨ ext a = true) := by
    intro m hm
    rcases (hg.new m hm (by simp)).1 with h1 | ⟨a, t, rfl, h1, -⟩
    · exact iff_of_true (Or.inl h1) (fun a t _ h2 => absurd h1 h2)
    · constructor
      · rintro (h2 | ⟨a', t', h2, -, h3⟩) b s h4 h5
        · exact absurd h2 h5
        · cases h2; cases h4; exact h3
      · intro h2
        by_cases h3 : ∃ f ∈ tree, f.name = a :: t
        · exact Or.inl h3
        · exact Or.inr ⟨a, t, rfl, h1, h2 a t rfl h3⟩
  have hf : (∀ a ∈ foreign tree L, ext a = true) ↔ ∀ m ∈ L, Present tree (outside ext) m := by
    unfold foreign
    simp only [List.mem_filterMap, List.mem_filter, Bool.not_eq_true', List.any_eq_false, beq_iff_eq]
    constructor
    · intro h1 m hm
      rw [hp m hm]
      rintro a t rfl h2
      by_cases h3 : a ∈ std
      · exact Or.inl h3
      · exact Or.inr (h1 a ⟨a :: t, ⟨hm, fun f hf he => h2 ⟨f, hf, he⟩⟩, by simp [h3]⟩)
    · rintro h1 a ⟨m, ⟨hm, h2⟩, h3⟩
      cases m with
      | nil => cases h3
      | cons b t =>
        simp only at h3
        split at h3
        · cases h3
        · rename_i hb
          cases h3
          rcases (hp _ hm).1 (h1 _ hm) a t rfl (by rintro ⟨f, hf, he⟩; exact h2 f hf he) with h4 | h4
          · exact absurd (by simpa using h4) hb
          · exact h4
  rw [hf]
  have h1 := (fold_iff (tree := tree) (ext := ext) (ns := ns) (L := []) (fuel := tree.length + 2)
    (by omega) (by simp)).1
  rw [h1]
  constructor
  · intro h2 m hm
    obtain ⟨p, hp, hr⟩ := hg.reach m hm (by simp)
    exact h2 p hp m hr
  · intro h2 p hp m hr
    refine h2 m ?_
    induction hr with
    | refl => exact hg.mem p hp
    | tail _ hs ih => exact (hg.new _ ih (by simp)).2 _ hs

theorem importModule_iff {tree : List File} {n : Imports.Name} {L : List Imports.Name} {H : List String}
    (h : importModule tree (fun _ => true) n = .ok L) (hH : foreign tree L = H) (ext : String → Bool) :
    (∃ L', importModule tree ext n = .ok L') ↔ ∀ a ∈ H, ext a = true :=
  fold_foreign h hH ext

theorem checkout_nodup : (checkout.map File.name).Nodup := by decide +kernel

/-- The modules loaded when everything is there. -/
def loaded (r : Res (List Imports.Name)) : List Imports.Name :=
  match r with
  | .ok L => L
  | .error _ => []

theorem loaded_eq {r : Res (List Imports.Name)} (h : loaded r ≠ []) : r = .ok (loaded r) := by
  cases r with
  | ok L => rfl
  | error e => exact absurd rfl h

theorem importModule_needs {tree : List File} {n : Imports.Name} {H : List String}
    (h : loaded (importModule tree (fun _ => true) n) ≠ [])
    (hH : foreign tree (loaded (importModule tree (fun _ => true) n)) = H) (ext : String → Bool) :
    (∃ L', importModule tree ext n = .ok L') ↔ ∀ a ∈ H, ext a = true :=
  importModule_iff (loaded_eq h) hH ext

/-- **C83.**  `python -m srg` starts, from the repository or installed, exactly if numpy and click are there.
`setup.py` does not ask for click. -/
theorem C83_main (ext : String → Bool) :
    ((∃ L, importModule checkout ext ["srg", "__main__"] = .ok L) ↔ ext "numpy" = true ∧ ext "click" = true) ∧
    ((∃ L, importModule installed ext ["srg", "__main__"] = .ok L) ↔ ext "numpy" = true ∧ ext "click" = true) ∧
    "click" ∉ requires := by
  refine ⟨?_, ?_, by decide +kernel⟩
  · rw [importModule_needs (H := ["click", "numpy"]) (by decide +kernel) (by decide +kernel)]
    simp [and_comm]
  · rw [importModule_needs (H := ["click", "numpy"]) (by decide +kernel) (by decide +kernel)]
    simp [and_comm]

/-- **C83.**  An installed copy has no database, whatever else is installed. -/
theorem C83_database (ext : String → Bool) : importModule installed ext ["srg", "database"] = .error .importErr ∧
    (∃ L, importModule checkout ext ["srg", "database"] = .ok L) ∧
    (∀ s ∈ problems, (∃ L, importModule checkout ext ["srg", "database", s] = .ok L) ↔ ext "numpy" = true) ∧
    (∀ s ∈ problems, (∃ L, importDraw checkout ext s = .ok L) ↔
      ext "numpy" = true ∧ ext "networkx" = true ∧ ext "matplotlib" = true) := by
  refine ⟨?_, ⟨[["srg", "database"], ["srg"]], by rfl⟩, ?_, ?_⟩
  · rfl
  · intro s hs
    have h : ∀ s ∈ problems, loaded (importModule checkout (fun _ => true) ["srg", "database", s]) ≠ [] ∧
        foreign checkout (loaded (importModule checkout (fun _ => true) ["srg", "database", s])) = ["numpy"] := by
      decide +kernel
    rw [importModule_needs (h s hs).1 (h s hs).2]
    simp
  · intro s hs
    have h : ∀ s ∈ problems, loaded (importDraw checkout (fun _ => true) s) ≠ [] ∧
        foreign checkout (loaded (importDraw checkout (fun _ => true) s)) =
          ["numpy", "matplotlib", "matplotlib", "networkx"] := by
      decide +kernel
    have := fold_foreign (loaded_eq (h s hs).1) (h s hs).2 ext
    unfold importDraw
    rw [this]
    simp
    tauto

/-- **C83.**  `python -m srg.database` never starts: it asks for a module `srg.util`. -/
theorem C83_util (ext : String → Bool) :
    importModule checkout ext ["srg", "database", "__main__"] = .error .importErr ∧
    Asks checkout ["srg", "database", "__main__"] ["srg", "util"] ∧
    ¬ Present checkout (fun _ => True) ["srg", "util"] := by
  have hno : ∀ f ∈ checkout, f.name ≠ ["srg", "util"] := by decide +kernel
  have hsrg : f_srg_init ∈ checkout := by decide +kernel
  have ha : Asks checkout ["srg", "database", "__main__"] ["srg", "util"] :=
    ⟨f_srg_database_main, by decide +kernel, rfl, (["srg"], ["util"]), by decide +kernel,
      Or.inr ⟨f_srg_init, hsrg, rfl, "util", by simp, by decide +kernel, rfl⟩⟩
  have hp : ∀ P : String → Prop, ¬ Present checkout P ["srg", "util"] := by
    rintro P (⟨f, hf, he⟩ | ⟨a, t, he, hf, -⟩)
    · exact hno f hf he
    · cases he
      exact hf _ hsrg rfl
  refine ⟨?_, ha, hp _⟩
  obtain ⟨h1, h2⟩ := C83_import checkout_nodup ext ["srg", "database", "__main__"]
  refine h2 fun h => hp _ (h1.1 h ["srg", "database", "__main__"] (by simp) (List.prefix_refl _) _
    (ReflTransGen.single ha))

/-- **C83.**  What the tests and the experiment script ask for. -/
theorem C83_tests (ext : String → Bool) :
    ((∃ L, importModule checkout ext ["test_sort"] = .ok L) ↔ ext "numpy" = true) ∧
    ((∃ L, importModule checkout ext ["test_solver"] = .ok L) ↔
      ext "numpy" = true ∧ ext "click" = true ∧ ext "pytest" = true) ∧
    ((∃ L, importModule checkout ext ["test_database"] = .ok L) ↔
      ext "numpy" = true ∧ ext "click" = true ∧ ext "pytest" = true) ∧
    ((∃ L, importModule checkout ext ["exp"] = .ok L) ↔ ext "numpy" = true ∧ ext "click" = true) := by
  refine ⟨?_, ?_, ?_, ?_⟩
  · rw [importModule_needs (H := ["numpy"]) (by decide +kernel) (by decide +kernel)]
    simp
  · rw [importModule_needs (H := ["pytest", "click", "numpy"]) (by decide +kernel) (by decide +kernel)]
    simp
    tauto
  · rw [importModule_needs (H := ["pytest", "click", "numpy"]) (by decide +kernel) (by decide +kernel)]
    simp
    tauto
  · rw [importModule_needs (H := ["click", "numpy"]) (by decide +kernel) (by decide +kernel)]
    simp [and_comm]

/-- An order of the modules in which each asks only for earlier ones. -/
def order : List Imports.Name :=
  [["srg"], ["srg", "srg"], ["srg", "pprint"], ["srg", "utils"], ["srg", "bounds"], ["srg", "fork"],
   ["srg", "gauss_elim"], ["srg", "partition"], ["srg", "unique"], ["srg", "sorter"], ["srg", "solver"],
   ["srg", "__main__"], ["srg", "database"], ["srg", "util"], ["srg", "database", "__main__"]] ++
  problems.map (fun s => ["srg", "database", s]) ++
  [["exp"], ["test_database"], ["test_solver"], ["test_sort"]]

/-- Position in the order; modules from outside come before all others. -/
def rank (n : Imports.Name) : Nat := if order.contains n then order.idxOf n + 1 else 0

theorem rank_ok : ∀ f ∈ checkout, ∀ m ∈ f.imports.flatMap (targets checkout), rank m < rank f.name := by
  decide +kernel

/-- **C83.**  No module asks for itself, directly or indirectly, so none is seen half loaded. -/
theorem C83_acyclic (n : Imports.Name) : ¬ TransGen (Asks checkout) n n := by
  have h : ∀ a b, Asks checkout a b → rank b < rank a := by
    intro a b hab
    have := (mem_succ checkout_nodup).2 hab
    unfold succ at this
    split at this
    · cases this
    · rename_i f hf
      obtain ⟨h1, rfl⟩ := (find_iff checkout_nodup).1 hf
      exact rank_ok f h1 b this
  have key : ∀ a b, TransGen (Asks checkout) a b → rank b < rank a := by
    intro a b hab
    induction hab with
    | single hab => exact h _ _ hab
    | tail _ hbc ih => exact (h _ _ hbc).trans ih
  exact fun hn => lt_irrefl _ (key _ _ hn)

/-- **C83.**  The list of modules agrees with the ones used for the database. -/
theorem C83_modules : problems = Database.entries.map (fun e => e.name) ∧
    Database.submodules = ((checkout.map File.name).filter fun n =>
      n.length == 2 && n.head? == some "srg" && n != ["srg", "__main__"]).map fun n =>
        (n.getLastD "").toList := by
  decide +kernel

/-- **C83.**  `uncythonize.sh` undoes `cythonize.sh`, whatever the files; what it copies is there; and it leaves
the rest alone. -/
theorem C83_scripts (tag : String) (fs : List Path) :
    uncythonize (cythonize tag fs) = uncythonize fs ∧
    ((∀ p ∈ fs, p.1 = "srg" → p.2.2 ∉ ["so", "pyx", "c"]) → uncythonize (cythonize tag fs) = fs) ∧
    uncythonize (cythonize tag files) = files ∧ (∀ m ∈ copied, ("srg", m, "py") ∈ files) ∧
    profiled ∉ files := by
  have h1 : ∀ fs, uncythonize (cythonize tag fs) = uncythonize fs := by
    intro fs
    unfold uncythonize cythonize
    rw [List.filter_append]
    refine (congrArg _ (List.filter_eq_nil_iff.2 ?_)).trans (List.append_nil _)
    intro p hp
    obtain ⟨m, -, hm⟩ := List.mem_flatMap.1 hp
    simp only [List.mem_cons, List.not_mem_nil, or_false] at hm
    rcases hm with rfl | rfl | rfl <;> simp
  have h2 : ∀ fs : List Path, (∀ p ∈ fs, p.1 = "srg" → p.2.2 ∉ ["so", "pyx", "c"]) → uncythonize fs = fs := by
    intro fs h
    unfold uncythonize
    rw [List.filter_eq_self]
    intro p hp
    have := h p hp
    by_cases e : p.1 = "srg"
    · have := this e
      simp at this
      simp [this]
    · simp [e]
  refine ⟨h1 fs, fun h => (h1 fs).trans (h2 fs h), (h1 files).trans (h2 files (by decide +kernel)),
    by decide +kernel, by decide +kernel⟩

/-- **C83.**  Nothing in the repository asks for `srg.partition`. -/
theorem C83_unused (n : Imports.Name) : ¬ Asks checkout n ["srg", "partition"] := by
  intro h
  have h1 := (mem_succ checkout_nodup).2 h
  unfold succ at h1
  split at h1
  · cases h1
  · rename_i f hf
    have : ∀ f ∈ checkout, ["srg", "partition"] ∉ f.imports.flatMap (targets checkout) := by decide +kernel
    exact this f ((find_iff checkout_nodup).1 hf).1 h1

/-- **C83.**  The packages of the checkout, and the modules `setup.py` installs. -/
theorem C83_packages : (checkout.filter File.pkg).map File.name = [["srg"], ["srg", "database"]] ∧
    installed.map File.name = [["srg"]] ++ ["__main__", "bounds", "fork", "gauss_elim", "partition", "pprint",
      "solver", "sorter", "srg", "unique", "utils"].map fun s => ["srg", s] := by
  decide +kernel

/-- Non-vacuity: what is loaded for `python -m srg`, last first, and a missing package. -/
example : importModule checkout (fun s => s == "numpy" || s == "click") ["srg", "__main__"] =
      .ok [["sys"], ["srg", "sorter"], ["srg", "fork"], ["srg", "bounds"], ["srg", "unique"], ["heapq"],
        ["srg", "gauss_elim"], ["collections"], ["typing"], ["itertools"], ["srg", "solver"], ["srg", "utils"],
        ["click"], ["srg", "pprint"], ["functools"], ["numpy"], ["srg", "srg"], ["srg", "__main__"], ["srg"]] ∧
    importModule installed requires.contains ["srg", "__main__"] = .error .importErr ∧
    cythonize "-x" [("srg", "fork", "py")] =
      [("srg", "fork", "py"), ("srg", "fork", "pyx"), ("srg", "fork", "c"), ("srg", "fork-x", "so")] := by
  decide +kernel

end TDS
