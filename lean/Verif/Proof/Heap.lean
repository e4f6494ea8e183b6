import Verif.Model.Heap
import Verif.Proof.Bounds
import Verif.Proof.Steps
import Verif.Proof.Loop

/-! Memory model: what each step writes, and agreement with the value model. -/

namespace TDS

namespace Mem

/-! ### Heap algebra -/

namespace Heap

/-- Number of one-dimensional arrays. -/
def nv (h : Heap) : Nat := h.vecs.length

/-- Number of two-dimensional arrays. -/
def nm (h : Heap) : Nat := h.mats.length

/-- Overwrite. -/
def put (h : Heap) (a : Nat) (x : Vec) : Heap := { h with vecs := h.vecs.set a x }

/-- Allocate. -/
def pushV (h : Heap) (x : Vec) : Heap := { h with vecs := h.vecs ++ [x] }

/-- Allocate. -/
def pushM (h : Heap) (x : Mat) : Heap := { h with mats := h.mats ++ [x] }

@[simp] theorem nv_put (h : Heap) (a x) : (h.put a x).nv = h.nv := by simp [nv, put]
@[simp] theorem nm_put (h : Heap) (a x) : (h.put a x).nm = h.nm := rfl
@[simp] theorem nv_pushV (h : Heap) (x) : (h.pushV x).nv = h.nv + 1 := by simp [nv, pushV]
@[simp] theorem nm_pushV (h : Heap) (x) : (h.pushV x).nm = h.nm := rfl
@[simp] theorem nv_pushM (h : Heap) (x) : (h.pushM x).nv = h.nv := rfl
@[simp] theorem nm_pushM (h : Heap) (x) : (h.pushM x).nm = h.nm + 1 := by simp [nm, pushM]

@[simp] theorem mat_put (h : Heap) (a x i) : (h.put a x).mat i = h.mat i := rfl
@[simp] theorem mat_pushV (h : Heap) (x i) : (h.pushV x).mat i = h.mat i := rfl
@[simp] theorem vec_pushM (h : Heap) (x i) : (h.pushM x).vec i = h.vec i := rfl

theorem vec_put_same {h : Heap} {a : Nat} (ha : a < h.nv) (x : Vec) : (h.put a x).vec a = x := by
  unfold nv at ha
  simp [vec, put, List.getD_eq_getElem?_getD, ha]

theorem vec_put_ne {h : Heap} {a i : Nat} (hi : i ≠ a) (x : Vec) : (h.put a x).vec i = h.vec i := by
  simp [vec, put, List.getD_eq_getElem?_getD, List.getElem?_set_ne (Ne.symm hi)]

theorem vec_pushV_lt {h : Heap} {i : Nat} (hi : i < h.nv) (x : Vec) : (h.pushV x).vec i = h.vec i := by
  unfold nv at hi
  simp [vec, pushV, List.getD_eq_getElem?_getD, List.getElem?_append_left hi]

@[simp] theorem vec_pushV_new (h : Heap) (x : Vec) : (h.pushV x).vec h.nv = x := by
  simp [vec, pushV, nv, List.getD_eq_getElem?_getD]

theorem mat_pushM_lt {h : Heap} {i : Nat} (hi : i < h.nm) (x : Mat) : (h.pushM x).mat i = h.mat i := by
  unfold nm at hi
  simp [mat, pushM, List.getD_eq_getElem?_getD, List.getElem?_append_left hi]

@[simp] theorem mat_pushM_new (h : Heap) (x : Mat) : (h.pushM x).mat h.nm = x := by
  simp [mat, pushM, nm, List.getD_eq_getElem?_getD]

theorem put_put (h : Heap) (a : Nat) (x y : Vec) : (h.put a x).put a y = h.put a y := by
  simp [put]

theorem put_self {h : Heap} {a : Nat} (ha : a < h.nv) : h.put a (h.vec a) = h := by
  unfold nv at ha
  have : h.vecs.set a (h.vec a) = h.vecs := by
    rw [vec, List.getD_eq_getElem _ _ ha]; exact List.set_getElem_self ha
  simp [put, this]

end Heap

/-- `h'` extends `h`: only the addresses in `W` may have changed. -/
structure Ext (W : List Nat) (h h' : Heap) : Prop where
  nv : h.nv ≤ h'.nv
  nm : h.nm ≤ h'.nm
  vec : ∀ a < h.nv, a ∉ W → h'.vec a = h.vec a
  mat : ∀ a < h.nm, h'.mat a = h.mat a

namespace Ext

theorem refl (W : List Nat) (h : Heap) : Ext W h h := ⟨le_refl _, le_refl _, fun _ _ _ => rfl, fun _ _ => rfl⟩

theorem trans {W W' : List Nat} {h h' h'' : Heap} (e : Ext W h h') (e' : Ext W' h' h'')
    (hw : ∀ a ∈ W', a ∈ W ∨ h.nv ≤ a) : Ext W h h'' := by
  refine ⟨e.nv.trans e'.nv, e.nm.trans e'.nm, ?_, ?_⟩
  · intro a ha hW
    rw [e'.vec a (lt_of_lt_of_le ha e.nv), e.vec a ha hW]
    intro h1
    rcases hw a h1 with h2 | h2
    · exact hW h2
    · omega
  · intro a ha
    rw [e'.mat a (lt_of_lt_of_le ha e.nm), e.mat a ha]

theorem pushV {W : List Nat} {h h' : Heap} (e : Ext W h h') (x : Vec) : Ext W h (h'.pushV x) := by
  refine ⟨by have := e.nv; simp; omega, by simpa using e.nm, ?_, ?_⟩
  · intro a ha hW
    rw [Heap.vec_pushV_lt (lt_of_lt_of_le ha e.nv), e.vec a ha hW]
  · intro a ha
    rw [Heap.mat_pushV, e.mat a ha]

theorem pushM {W : List Nat} {h h' : Heap} (e : Ext W h h') (x : Mat) : Ext W h (h'.pushM x) := by
  refine ⟨by simpa using e.nv, by have := e.nm; simp; omega, ?_, ?_⟩
  · intro a ha hW
    rw [Heap.vec_pushM, e.vec a ha hW]
  · intro a ha
    rw [Heap.mat_pushM_lt (lt_of_lt_of_le ha e.nm), e.mat a ha]

theorem put {W : List Nat} {h h' : Heap} (e : Ext W h h') {a : Nat} (ha : a ∈ W ∨ h.nv ≤ a) (x : Vec) :
    Ext W h (h'.put a x) := by
  refine ⟨by simpa using e.nv, by simpa using e.nm, ?_, ?_⟩
  · intro i hi hW
    rw [Heap.vec_put_ne, e.vec i hi hW]
    rintro rfl
    rcases ha with h1 | h1
    · exact hW h1
    · omega
  · intro i hi
    rw [Heap.mat_put, e.mat i hi]

end Ext

/-! ### The monad -/

section
variable {α β : Type}

theorem bind_ok {m : HM α} {f : α → HM β} {h h' : Heap} {a : α} (e : m h = (.ok a, h')) :
    (m >>= f) h = f a h' := by
  show (match m h with | (.ok a, h') => f a h' | (.error e, h') => (.error e, h')) = _
  rw [e]

theorem bind_error {m : HM α} {f : α → HM β} {h h' : Heap} {x : Err} (e : m h = (.error x, h')) :
    (m >>= f) h = (.error x, h') := by
  show (match m h with | (.ok a, h') => f a h' | (.error e, h') => (.error e, h')) = _
  rw [e]

@[simp] theorem pure_run (a : α) (h : Heap) : (pure a : HM α) h = (.ok a, h) := rfl
@[simp] theorem liftR_run (r : Res α) (h : Heap) : liftR r h = (r, h) := rfl
@[simp] theorem getV_bind (a : Nat) (f : Vec → HM β) (h : Heap) : (getV a >>= f) h = f (h.vec a) h := rfl
@[simp] theorem getM_bind (a : Nat) (f : Mat → HM β) (h : Heap) : (getM a >>= f) h = f (h.mat a) h := rfl
@[simp] theorem readQ_bind (q : QRef) (f : Question → HM β) (h : Heap) :
    (readQ q >>= f) h = f (deref h q) h := rfl
@[simp] theorem newV_bind (x : Vec) (f : Nat → HM β) (h : Heap) :
    (newV x >>= f) h = f h.nv (h.pushV x) := rfl
@[simp] theorem newM_bind (x : Mat) (f : Nat → HM β) (h : Heap) :
    (newM x >>= f) h = f h.nm (h.pushM x) := rfl
@[simp] theorem putV_bind (a : Nat) (x : Vec) (f : Unit → HM β) (h : Heap) :
    (putV a x >>= f) h = f () (h.put a x) := rfl
@[simp] theorem liftR_ok_bind (a : α) (f : α → HM β) (h : Heap) :
    (liftR (.ok a) >>= f) h = f a h := rfl
@[simp] theorem liftR_error_bind (e : Err) (f : α → HM β) (h : Heap) :
    (liftR (.error e) >>= f) h = (.error e, h) := rfl
@[simp] theorem pure_bind_run (a : α) (f : α → HM β) (h : Heap) :
    ((pure a : HM α) >>= f) h = f a h := rfl

theorem setAt_run {a i : Nat} {x : Int} {h : Heap} (hi : i < (h.vec a).length) :
    setAt a i x h = (.ok (), h.put a ((h.vec a).set i x)) := by
  unfold setAt
  rw [getV_bind, if_pos hi]
  rfl

end

/-! ### Ownership -/

/-- The one-dimensional arrays of a question. -/
def QRef.refs (q : QRef) : List Nat := [q.b, q.bounds, q.v, q.loc]

/-- The addresses of `q` are allocated and different from each other. -/
structure Own (h : Heap) (q : QRef) : Prop where
  mat : q.A < h.nm
  lt : ∀ a ∈ q.refs, a < h.nv
  nodup : q.refs.Nodup

theorem Own.ext {W : List Nat} {h h' : Heap} {q : QRef} (o : Own h q) (e : Ext W h h') : Own h' q :=
  ⟨lt_of_lt_of_le o.mat e.nm, fun a ha => lt_of_lt_of_le (o.lt a ha) e.nv, o.nodup⟩

theorem deref_ext {W : List Nat} {h h' : Heap} {q : QRef} (o : Own h q) (e : Ext W h h')
    (hd : ∀ a ∈ q.refs, a ∉ W) : deref h' q = deref h q := by
  have f : ∀ a ∈ q.refs, h'.vec a = h.vec a := fun a ha => e.vec a (o.lt a ha) (hd a ha)
  unfold deref
  rw [e.mat _ o.mat, f q.b (by simp [QRef.refs]), f q.bounds (by simp [QRef.refs]),
    f q.v (by simp [QRef.refs]), f q.loc (by simp [QRef.refs])]

/-- A result reference uses only addresses of the argument and new ones. -/
structure From (h : Heap) (q : QRef) (h' : Heap) (q' : QRef) : Prop where
  own : Own h' q'
  refs : ∀ a ∈ q'.refs, a ∈ q.refs ∨ h.nv ≤ a
  mat : q'.A = q.A ∨ h.nm ≤ q'.A

theorem From.refl {h : Heap} {q : QRef} (o : Own h q) : From h q h q :=
  ⟨o, fun _ ha => Or.inl ha, Or.inl rfl⟩

theorem From.trans {W : List Nat} {h h' h'' : Heap} {q q' q'' : QRef} (e : Ext W h h')
    (f : From h q h' q') (g : From h' q' h'' q'') : From h q h'' q'' := by
  refine ⟨g.own, ?_, ?_⟩
  · intro a ha
    rcases g.refs a ha with h1 | h1
    · exact f.refs a h1
    · right; exact e.nv.trans h1
  · rcases g.mat with h1 | h1
    · rw [h1]; exact f.mat
    · right; exact e.nm.trans h1

/-- Well-formed question: what the constructors assert, and a rectangular system. -/
structure WF (Q : Question) : Prop where
  rect : ∀ r ∈ Q.A, r.length = ncols Q.A
  blen : Q.b.length = Q.A.length
  bdlen : Q.bounds.length = ncols Q.A
  b0 : ∀ x ∈ Q.b, 0 ≤ x
  bd0 : ∀ x ∈ Q.bounds, 0 ≤ x
  quota0 : 0 ≤ Q.quota
  ans : Answer.mk' Q.ans.v Q.ans.loc Q.ans.len = .ok Q.ans

/-- Outcome of a step on memory against the outcome of the same step on values. -/
def Agree (h : Heap) (q : QRef) (x : Res QRef × Heap) (r : Res Question) : Prop :=
  Ext q.refs h x.2 ∧
    match x.1, r with
    | .ok q', .ok Q' => deref x.2 q' = Q' ∧ From h q x.2 q'
    | .error e, .error e' => e = e'
    | _, _ => False

/-- A step on memory simulates a step on values. -/
def Sim (m : QRef → HM QRef) (f : Question → Res Question) : Prop :=
  ∀ h q, Own h q → WF (deref h q) → Agree h q (m q h) (f (deref h q))

/-- A step on values keeps questions well formed. -/
def Keeps (f : Question → Res Question) : Prop := ∀ Q Q', WF Q → f Q = .ok Q' → WF Q'

theorem Sim.comp {m m' : QRef → HM QRef} {f f' : Question → Res Question} (s : Sim m f) (k : Keeps f)
    (s' : Sim m' f') : Sim (fun q => m q >>= m') (fun Q => f Q >>= f') := by
  intro h q o w
  have a := s h q o w
  rcases hm : m q h with ⟨x, h1⟩
  rw [hm] at a
  obtain ⟨e, a⟩ := a
  rcases x with x | q1
  · rcases hf : f (deref h q) with y | Q1
    · rw [hf] at a
      simp only at a
      show Agree h q ((m q >>= m') h) (f (deref h q) >>= f')
      rw [bind_error hm, hf]
      exact ⟨e, a⟩
    · rw [hf] at a; exact a.elim
  · rcases hf : f (deref h q) with y | Q1
    · rw [hf] at a; exact a.elim
    · rw [hf] at a
      obtain ⟨d, fr⟩ := a
      simp only at d fr e
      show Agree h q ((m q >>= m') h) (f (deref h q) >>= f')
      rw [bind_ok hm, hf]
      have w1 : WF (deref h1 q1) := by rw [d]; exact k _ _ w hf
      obtain ⟨e2, a2⟩ := s' h1 q1 fr.own w1
      rw [d] at a2
      refine ⟨e.trans e2 fr.refs, ?_⟩
      show match (m' q1 h1).1, f' Q1 with
        | .ok q', .ok Q' => deref (m' q1 h1).2 q' = Q' ∧ From h q (m' q1 h1).2 q'
        | .error e, .error e' => e = e'
        | _, _ => False
      rcases h3 : (m' q1 h1).1 with x | q2 <;> rcases h4 : f' Q1 with y | Q2 <;>
        rw [h3, h4] at a2 <;> simp only at a2 ⊢
      · exact a2
      · exact ⟨a2.1, From.trans e fr a2.2⟩

theorem checkAfterH_run {h : Heap} {q : QRef} :
    checkAfterH q h = ((checkAfter (deref h q)).map (fun _ => q), h) := by
  unfold checkAfterH
  rw [readQ_bind]
  rcases hc : checkAfter (deref h q) with e | Q
  · rw [liftR_error_bind]; rfl
  · rw [liftR_ok_bind]; rfl

/-- Finishing a step: new reference `q'` in heap `h'`, then the checks. -/
theorem agree_check {h h' : Heap} {q q' : QRef} {Q' : Question} (e : Ext q.refs h h')
    (d : deref h' q' = Q') (f : From h q h' q') :
    Agree h q (checkAfterH q' h') (checkAfter Q') := by
  rw [checkAfterH_run, d]
  rcases hc : checkAfter Q' with x | Q1
  · exact ⟨e, rfl⟩
  · have := checkAfter_eq hc
    subst this
    exact ⟨e, d, f⟩

theorem sim_check : Sim checkAfterH checkAfter := by
  intro h q o _
  exact agree_check (Ext.refl _ _) rfl (From.refl o)

theorem keeps_check : Keeps checkAfter := by
  intro Q Q' w h
  rw [checkAfter_eq h]; exact w

/-! ### `reduce_col` -/

theorem pyAssert_ok' {c : Bool} {x : Unit} (h : pyAssert c = .ok x) : c = true := by
  unfold pyAssert at h
  split at h
  · assumption
  · cases h

theorem mapM_length' {α β : Type} {f : α → Res β} {l : List α} {r : List β} (h : l.mapM f = .ok r) :
    r.length = l.length := by
  induction l generalizing r with
  | nil =>
    rw [List.mapM_nil] at h
    rw [← Except.ok.inj h]; rfl
  | cons a t ih =>
    rw [List.mapM_cons] at h
    obtain ⟨b, -, h⟩ := bind_eq_ok.1 h
    obtain ⟨bs, hbs, h⟩ := bind_eq_ok.1 h
    rw [← Except.ok.inj h, List.length_cons, List.length_cons, ih hbs]

theorem ansMk_eq {v loc : Vec} {len : Int} {a : Answer} (h : Answer.mk' v loc len = .ok a) :
    a = ⟨v, loc, len⟩ := by
  unfold Answer.mk' at h
  obtain ⟨-, -, h⟩ := bind_eq_ok.1 h
  split at h
  · obtain ⟨_, -, h⟩ := bind_eq_ok.1 h
    obtain ⟨_, -, h⟩ := bind_eq_ok.1 h
    obtain ⟨_, -, h⟩ := bind_eq_ok.1 h
    exact (Except.ok.inj h).symm
  · exact (Except.ok.inj h).symm

/-- The assertions on an answer do not look at the values. -/
theorem ansMk_values {v v' loc : Vec} {len : Int} {a : Answer} (h : Answer.mk' v loc len = .ok a)
    (hl : v'.length = v.length) : Answer.mk' v' loc len = .ok ⟨v', loc, len⟩ := by
  have ha := ansMk_eq h
  subst ha
  unfold Answer.mk' at h ⊢
  rw [hl]
  obtain ⟨x, hx, h⟩ := bind_eq_ok.1 h
  rw [hx, ok_bind]
  split at h
  · next hp =>
    rw [if_pos hp]
    obtain ⟨x, h1, h⟩ := bind_eq_ok.1 h
    obtain ⟨x, h2, h⟩ := bind_eq_ok.1 h
    obtain ⟨x, h3, h⟩ := bind_eq_ok.1 h
    simp only [h1, h2, h3, ok_bind]
  · next hp => rw [if_neg hp]

theorem checkAfter_len {Q Q' : Question} (h : checkAfter Q = .ok Q') :
    Q.bounds.length = ncols Q.A := by
  unfold checkAfter at h
  simp only at h
  split at h
  · cases h
  · obtain ⟨_, h1, -⟩ := bind_eq_ok.1 h
    simpa using pyAssert_ok' h1

theorem ncols_eq {A : Mat} {C : Nat} (hne : A ≠ []) (h : ∀ r ∈ A, r.length = C) : ncols A = C := by
  cases A with
  | nil => exact absurd rfl hne
  | cons r t => exact h r (by simp)

theorem reduceColBody_parts {Q Q' : Question} (w : WF Q) (h2 : ¬ ncols Q.A < 2)
    (h : reduceColBody Q = .ok Q') :
    Q'.b = Q.b ∧ Q'.quota = Q.quota ∧ Q'.ans.len = Q.ans.len ∧ WF Q' := by
  unfold reduceColBody at h
  rw [if_neg h2] at h
  obtain ⟨enc, henc, h⟩ := bind_eq_ok.1 h
  simp only at h
  obtain ⟨da, _, h⟩ := bind_eq_ok.1 h
  obtain ⟨_, hb, h⟩ := bind_eq_ok.1 h
  obtain ⟨a, ha, h⟩ := bind_eq_ok.1 h
  obtain ⟨_, _, h⟩ := bind_eq_ok.1 h
  have h := (Except.ok.inj h).symm
  have hae := ansMk_eq ha
  subst h
  have hne : Q.A ≠ [] := by
    intro h0
    rw [h0] at h2
    exact h2 (by simp [ncols])
  have hrect : ∀ r ∈ Q.A.map (fun r => ((groups enc).map (fun g => g.2.headD 0)).map
      (fun j => r.getD j 0)), r.length = (groups enc).length := by
    intro r hr
    obtain ⟨r', -, rfl⟩ := List.mem_map.1 hr
    simp
  have hnc : ncols (Q.A.map (fun r => ((groups enc).map (fun g => g.2.headD 0)).map
      (fun j => r.getD j 0))) = (groups enc).length := ncols_eq (by simpa using hne) hrect
  refine ⟨rfl, rfl, by rw [hae], ⟨?_, ?_, ?_, w.b0, ?_, w.quota0, ?_⟩⟩
  · intro r hr
    rw [hrect r hr]; exact hnc.symm
  · simpa using w.blen
  · show (List.map _ (groups enc)).length = _
    rw [List.length_map]; exact hnc.symm
  · have := pyAssert_ok' hb
    rw [List.all_eq_true] at this
    intro x hx
    simpa using this x hx
  · show Answer.mk' a.v a.loc a.len = .ok a
    rw [hae] at ha ⊢
    exact ha

theorem sim_reduceCol : Sim reduceColH reduceCol := by
  intro h q o w
  have hr : reduceCol (deref h q) = (reduceColBody (deref h q) >>= checkAfter) := rfl
  rw [hr]
  unfold reduceColH
  rw [readQ_bind]
  by_cases h2 : ncols (deref h q).A < 2
  · rw [if_pos h2]
    have : reduceColBody (deref h q) = .ok (deref h q) := by
      unfold reduceColBody; rw [if_pos h2]
    rw [this]
    exact sim_check h q o w
  · rw [if_neg h2]
    rcases hb : reduceColBody (deref h q) with e | Q'
    · rw [liftR_error_bind]
      exact ⟨Ext.refl _ _, rfl⟩
    · rw [liftR_ok_bind, newV_bind, newV_bind, newM_bind, newV_bind]
      obtain ⟨p1, p2, p3, -⟩ := reduceColBody_parts w h2 hb
      have hb' : q.b < h.nv := o.lt _ (by simp [QRef.refs])
      simp only [Heap.nv_pushV, Heap.nv_pushM, Heap.nm_pushV]
      refine agree_check ((((Ext.refl _ _).pushV _).pushV _).pushM _ |>.pushV _) ?_ ?_
      · unfold deref
        simp only
        rw [Heap.vec_pushV_lt (by simp; omega), Heap.vec_pushM, Heap.vec_pushV_lt (by simp; omega),
          Heap.vec_pushV_lt (by omega)]
        rw [show h.nv + 1 + 1 = (((h.pushV Q'.ans.v).pushV Q'.ans.loc).pushM Q'.A).nv by simp,
          Heap.vec_pushV_new]
        rw [Heap.vec_pushV_lt (by simp; omega), Heap.vec_pushM, Heap.vec_pushV_lt (by simp),
          Heap.vec_pushV_new]
        rw [Heap.vec_pushV_lt (by simp), Heap.vec_pushM,
          show h.nv + 1 = (h.pushV Q'.ans.v).nv by simp, Heap.vec_pushV_new, Heap.mat_pushV]
        rw [show h.nm = ((h.pushV Q'.ans.v).pushV Q'.ans.loc).nm by simp, Heap.mat_pushM_new]
        have p1' : h.vec q.b = Q'.b := p1.symm
        have p2' : q.quota = Q'.quota := p2.symm
        have p3' : q.len = Q'.ans.len := p3.symm
        rw [p1', p2', p3']
      · refine ⟨⟨by simp, ?_, ?_⟩, ?_, Or.inr (le_refl _)⟩
        · intro a ha
          simp [QRef.refs] at ha ⊢
          omega
        · simp [QRef.refs]
          omega
        · intro a ha
          simp [QRef.refs] at ha ⊢
          omega

theorem keeps_reduceCol : Keeps reduceCol := by
  intro Q Q' w h
  unfold reduceCol at h
  obtain ⟨Q1, h1, h⟩ := bind_eq_ok.1 h
  rw [checkAfter_eq h]
  by_cases h2 : ncols Q.A < 2
  · unfold reduceColBody at h1
    rw [if_pos h2] at h1
    rw [← Except.ok.inj h1]; exact w
  · exact (reduceColBody_parts w h2 h1).2.2.2

/-! ### `eliminate` -/

theorem decode_shape {hd : List Gauss.Entry} {A : Mat} {b : Vec} (h : Gauss.decode hd = .ok (A, b)) :
    (∀ r ∈ A, r.length = ncols A) ∧ b.length = A.length := by
  unfold Gauss.decode at h
  split at h
  · cases h
  · obtain ⟨rows, hrows, h⟩ := bind_eq_ok.1 h
    simp only at h
    split at h
    · cases h
    · have h := Except.ok.inj h
      injection h with hA hb
      subst hA hb
      have hmax : ∀ r ∈ rows, r.length ≤ (rows.map List.length).foldl max 0 := by
        intro r hr
        have : ∀ (l : List Nat) (i : Nat), i ≤ l.foldl max i ∧ ∀ x ∈ l, x ≤ l.foldl max i := by
          intro l
          induction l with
          | nil => intro i; simp
          | cons y t ih =>
            intro i
            obtain ⟨i1, i2⟩ := ih (max i y)
            refine ⟨(le_max_left _ _).trans i1, ?_⟩
            intro x hx
            rcases List.mem_cons.1 hx with rfl | hx
            · exact (le_max_right _ _).trans i1
            · exact i2 x hx
        exact (this _ 0).2 _ (List.mem_map_of_mem hr)
      have hl : ∀ r ∈ rows.map (Gauss.padLeft ((rows.map List.length).foldl max 0)),
          r.length = (rows.map List.length).foldl max 0 := by
        intro r hr
        obtain ⟨r', h', rfl⟩ := List.mem_map.1 hr
        have := hmax r' h'
        unfold Gauss.padLeft
        rw [List.length_append, List.length_replicate]
        omega
      refine ⟨?_, ?_⟩
      · intro r hr
        rw [hl r hr]
        exact (ncols_eq (List.ne_nil_of_mem hr) hl).symm
      · rw [List.length_map, List.length_map, mapM_length' hrows]

theorem eliminateBody_parts {Q Q' : Question} (h : eliminateBody Q = .ok Q') :
    Q' = { Q with A := Q'.A, b := Q'.b } ∧
      (WF Q → Q'.bounds.length = ncols Q'.A → WF Q') := by
  unfold eliminateBody at h
  split at h
  · have := Except.ok.inj h
    subst this
    exact ⟨rfl, fun w _ => w⟩
  · obtain ⟨⟨A, b⟩, hE, h⟩ := bind_eq_ok.1 h
    simp only at h
    obtain ⟨_, hb, h⟩ := bind_eq_ok.1 h
    have := (Except.ok.inj h).symm
    subst this
    refine ⟨rfl, fun w hlen => ?_⟩
    unfold Gauss.elim at hE
    obtain ⟨hd, _, hE⟩ := bind_eq_ok.1 hE
    obtain ⟨hd', _, hE⟩ := bind_eq_ok.1 hE
    obtain ⟨s1, s2⟩ := decode_shape hE
    refine ⟨s1, s2, hlen, ?_, w.bd0, w.quota0, w.ans⟩
    have := pyAssert_ok' hb
    rw [List.all_eq_true] at this
    intro x hx
    simpa using this x hx

theorem sim_eliminate : Sim eliminateH eliminate := by
  intro h q o w
  have hr : eliminate (deref h q) = (eliminateBody (deref h q) >>= checkAfter) := rfl
  rw [hr]
  unfold eliminateH
  rw [readQ_bind]
  by_cases h2 : ncols (deref h q).A = 0
  · rw [if_pos h2]
    have : eliminateBody (deref h q) = .ok (deref h q) := by
      unfold eliminateBody; rw [if_pos h2]
    rw [this]
    exact sim_check h q o w
  · rw [if_neg h2]
    rcases hb : eliminateBody (deref h q) with e | Q'
    · rw [liftR_error_bind]
      exact ⟨Ext.refl _ _, rfl⟩
    · rw [liftR_ok_bind, newM_bind, newV_bind]
      obtain ⟨p1, -⟩ := eliminateBody_parts hb
      have hlt := o.lt
      simp only [QRef.refs, List.mem_cons, List.not_mem_nil, or_false, forall_eq_or_imp,
        forall_eq] at hlt
      have hnd := o.nodup
      simp [QRef.refs] at hnd
      simp only [Heap.nv_pushM]
      refine agree_check ((Ext.refl _ _).pushM _ |>.pushV _) ?_ ?_
      · rw [p1]
        unfold deref
        simp only
        rw [show h.nv = (h.pushM Q'.A).nv by simp, Heap.vec_pushV_new, Heap.mat_pushV,
          Heap.mat_pushM_new, Heap.vec_pushV_lt (by simp; omega), Heap.vec_pushV_lt (by simp; omega),
          Heap.vec_pushV_lt (by simp; omega)]
        rfl
      · refine ⟨⟨by simp, ?_, ?_⟩, ?_, Or.inr (le_refl _)⟩
        · intro a ha
          simp [QRef.refs] at ha ⊢
          omega
        · simp [QRef.refs]
          omega
        · intro a ha
          simp [QRef.refs] at ha ⊢
          omega

theorem keeps_eliminate : Keeps eliminate := by
  intro Q Q' w h
  unfold eliminate at h
  obtain ⟨Q1, h1, h⟩ := bind_eq_ok.1 h
  rw [checkAfter_eq h]
  exact (eliminateBody_parts h1).2 w (checkAfter_len h)

/-! ### `zero_in_b` -/

theorem lubRowH_run {a : Nat} {u : Int} : ∀ {js : List Nat} {h : Heap}, a < h.nv →
    (∀ j ∈ js, j < (h.vec a).length) →
    lubRowH a u js h = (.ok (), h.put a (js.foldl (fun bd j => bd.set j (min (bd.getD j 0) u))
      (h.vec a)))
  | [], h, ha, _ => by
    show ((.ok () : Res Unit), h) = _
    rw [List.foldl_nil, Heap.put_self ha]
  | j :: t, h, ha, hj => by
    have h0 : j < (h.vec a).length := hj j (by simp)
    rw [lubRowH, getV_bind, pyGet_of_lt h0, liftR_ok_bind, bind_ok (setAt_run h0)]
    have hs : ((h.put a ((h.vec a).set j (min (h.vec a)[j] u))).vec a) =
        (h.vec a).set j (min (h.vec a)[j] u) := Heap.vec_put_same ha _
    rw [lubRowH_run (by simpa using ha) (by
      intro i hi
      rw [hs, List.length_set]
      exact hj i (by simp [hi])), hs, Heap.put_put, List.foldl_cons, List.getD_eq_getElem _ _ h0]

theorem foldl_set_getD {u : Int} : ∀ {js : List Nat} {bd : Vec}, js.Nodup →
    (js.foldl (fun bd j => bd.set j (min (bd.getD j 0) u)) bd).length = bd.length ∧
    ∀ i < bd.length, (js.foldl (fun bd j => bd.set j (min (bd.getD j 0) u)) bd).getD i 0 =
      if i ∈ js then min (bd.getD i 0) u else bd.getD i 0
  | [], bd, _ => by simp
  | j :: t, bd, hn => by
    obtain ⟨h1, h2⟩ := List.nodup_cons.1 hn
    obtain ⟨e1, e2⟩ := foldl_set_getD (u := u) (bd := bd.set j (min (bd.getD j 0) u)) h2
    rw [List.foldl_cons]
    refine ⟨by rw [e1, List.length_set], ?_⟩
    intro i hi
    rw [e2 i (by rwa [List.length_set])]
    by_cases hij : i = j
    · subst hij
      rw [if_neg h1, if_pos (by simp), List.getD_eq_getElem _ _ (by rwa [List.length_set])]
      simp
    · have : (bd.set j (min (bd.getD j 0) u)).getD i 0 = bd.getD i 0 := by
        rw [List.getD_eq_getElem?_getD, List.getElem?_set_ne (Ne.symm hij),
          ← List.getD_eq_getElem?_getD]
      rw [this]
      simp [hij]

theorem foldl_set_boundRow {row bd : Vec} {u : Int} (hl : row.length = bd.length) :
    (npWhere (fun x => x != 0) row).foldl (fun bd j => bd.set j (min (bd.getD j 0) u)) bd =
      Bounds.boundRow row u bd := by
  obtain ⟨e1, e2⟩ := foldl_set_getD (u := u) (bd := bd)
    (npWhere_nodup (fun x => x != 0) row)
  have e3 := Bounds.boundRow_length u hl
  apply Bounds.ext_getD (by rw [e1, e3])
  intro j
  by_cases hj : j < bd.length
  · rw [e2 j hj, Bounds.boundRow_getD u hl]
    by_cases h0 : row.getD j 0 = 0
    · rw [if_neg, if_neg (not_not.2 h0)]
      rw [mem_npWhere]
      rintro ⟨-, h1⟩
      rw [h0] at h1
      exact absurd h1 (by decide)
    · rw [if_pos, if_pos h0]
      rw [mem_npWhere]
      exact ⟨by omega, by simpa using h0⟩
  · rw [List.getD_eq_default _ _ (by omega), List.getD_eq_default _ _ (by omega)]

theorem lubH_run {A b a : Nat} (hab : b ≠ a) : ∀ {is : List Nat} {h : Heap}, a < h.nv →
    (∀ i ∈ is, ((h.mat A).getD i []).length = (h.vec a).length) →
    lubH A b a is h = (.ok (), h.put a (is.foldl
      (fun bd i => Bounds.boundRow ((h.mat A).getD i []) ((h.vec b).getD i 0) bd) (h.vec a)))
  | [], h, ha, _ => by
    show ((.ok () : Res Unit), h) = _
    rw [List.foldl_nil, Heap.put_self ha]
  | i :: t, h, ha, hl => by
    have h0 := hl i (by simp)
    rw [lubH, getM_bind, getV_bind]
    have hrow := lubRowH_run (u := (h.vec b).getD i 0)
      (js := npWhere (fun x => x != 0) ((h.mat A).getD i [])) ha (by
        intro j hj
        rw [mem_npWhere] at hj
        omega)
    rw [bind_ok hrow, foldl_set_boundRow h0]
    have hs := Heap.vec_put_same ha (Bounds.boundRow ((h.mat A).getD i []) ((h.vec b).getD i 0)
      (h.vec a))
    rw [lubH_run hab (by simpa using ha) (by
      intro j hj
      rw [hs, Bounds.boundRow_length _ h0, Heap.mat_put]
      exact hl j (by simp [hj]))]
    rw [hs, Heap.put_put, List.foldl_cons, Heap.mat_put, Heap.vec_put_ne hab]

theorem zip_eq_map_range (A : Mat) (b : Vec) :
    A.zip b = (List.range (min A.length b.length)).map (fun i => (A.getD i [], b.getD i 0)) := by
  apply List.ext_getElem
  · simp
  · intro i h1 h2
    simp only [List.length_zip] at h1
    simp only [List.getElem_zip, List.getElem_map, List.getElem_range]
    rw [List.getD_eq_getElem _ _ (by omega), List.getD_eq_getElem _ _ (by omega)]

theorem lubH_all {h : Heap} {q : QRef} (o : Own h q) (w : WF (deref h q)) :
    lubH q.A q.b q.bounds (List.range (min (h.mat q.A).length (h.vec q.b).length)) h =
      (.ok (), h.put q.bounds (Bounds.lowerUpperBound (h.mat q.A) (h.vec q.b) (h.vec q.bounds))) := by
  have hnd := o.nodup
  simp [QRef.refs] at hnd
  rw [lubH_run (by omega) (o.lt _ (by simp [QRef.refs]))]
  · unfold Bounds.lowerUpperBound
    rw [zip_eq_map_range, List.foldl_map]
  · intro i hi
    rw [List.mem_range] at hi
    have h1 : (h.mat q.A).getD i [] ∈ h.mat q.A := by
      rw [List.getD_eq_getElem _ _ (by omega)]
      exact List.getElem_mem _
    have h2 := w.rect _ h1
    have h3 := w.bdlen
    show _ = (deref h q).bounds.length
    rw [h3]
    exact h2

theorem assignAll_len {ul : List Nat} : ∀ {l : List (Nat × Int)} {v v' : Vec},
    assignAll ul v l = .ok v' → v'.length = v.length
  | [], v, v', h => by rw [← Except.ok.inj h]
  | (c, x) :: t, v, v', h => by
    rw [assignAll] at h
    obtain ⟨p, _, h⟩ := bind_eq_ok.1 h
    rw [assignAll_len h, List.length_set]

theorem pyGet_mem {α : Type} {l : List α} {i : Nat} {x : α} (h : pyGet l i = .ok x) : x ∈ l := by
  unfold pyGet at h
  split at h
  · next a ha =>
    rw [← Except.ok.inj h]
    exact List.mem_of_getElem? ha
  · cases h

theorem zeroLoopH_run {v : Nat} {ul : List Nat} : ∀ {zs : List Nat} {h : Heap}, v < h.nv →
    (∀ p ∈ ul, p < (h.vec v).length) →
    ∃ x, zeroLoopH v ul zs h =
        ((assignAll ul (h.vec v) (zs.map (fun j => (j, 0)))).map (fun _ => ()), h.put v x) ∧
      ∀ y, assignAll ul (h.vec v) (zs.map (fun j => (j, 0))) = .ok y → x = y
  | [], h, hv, _ => by
    refine ⟨h.vec v, ?_, ?_⟩
    · show ((.ok () : Res Unit), h) = _
      rw [Heap.put_self hv]; rfl
    · intro y hy; exact Except.ok.inj hy
  | z :: t, h, hv, hp => by
    rw [zeroLoopH, List.map_cons, assignAll]
    rcases hg : pyGet ul z with e | p
    · refine ⟨h.vec v, ?_, ?_⟩
      · rw [liftR_error_bind, Heap.put_self hv]; rfl
      · intro y hy; cases hy
    · have hlt := hp p (pyGet_mem hg)
      rw [liftR_ok_bind, bind_ok (setAt_run hlt), ok_bind]
      have hs := Heap.vec_put_same hv ((h.vec v).set p 0)
      obtain ⟨x, hx, hy⟩ := zeroLoopH_run (ul := ul) (zs := t) (h := h.put v ((h.vec v).set p 0))
        (by simpa using hv) (by
          intro p' hp'
          rw [hs, List.length_set]
          exact hp p' hp')
      rw [hs] at hx hy
      exact ⟨x, by rw [hx, Heap.put_put], hy⟩

theorem unknownLoc_lt (a : Answer) : ∀ p ∈ a.unknownLoc, p < a.v.length := by
  intro p hp
  unfold Answer.unknownLoc at hp
  exact (mem_npWhere.1 hp).1

theorem sim_zeroInB : Sim zeroInBH zeroInB := by
  intro h q o w
  have hlt := o.lt
  simp only [QRef.refs, List.mem_cons, List.not_mem_nil, or_false, forall_eq_or_imp,
    forall_eq] at hlt
  have hnd := o.nodup
  simp [QRef.refs] at hnd
  obtain ⟨l1, l2, l3, l4⟩ := hlt
  have hr : zeroInB (deref h q) = (zeroInBBody (deref h q) >>= checkAfter) := rfl
  rw [hr]
  unfold zeroInBH
  rw [getM_bind, getV_bind, bind_ok (lubH_all o w), readQ_bind]
  set bd := Bounds.lowerUpperBound (h.mat q.A) (h.vec q.b) (h.vec q.bounds) with hbd
  set h1 := h.put q.bounds bd with hh1
  have e1 : Ext q.refs h h1 := (Ext.refl _ _).put (Or.inl (by simp [QRef.refs])) _
  have d1 : deref h1 q = { deref h q with bounds := bd } := by
    unfold deref
    rw [hh1, Heap.vec_put_same l2, Heap.vec_put_ne (by omega), Heap.vec_put_ne (by omega),
      Heap.vec_put_ne (by omega), Heap.mat_put]
  have hbody : zeroInBBody (deref h q) = (pyAssert ((deref h q).ans.unknownLoc.length == bd.length) >>=
      fun _ => assignAll (deref h q).ans.unknownLoc (deref h q).ans.v
        ((Bounds.zeroBoundLoc bd).map (fun j => (j, 0))) >>= fun v =>
      pyAssert ((npDelete (Bounds.zeroBoundLoc bd) bd).all (fun x => decide (x ≥ 0))) >>= fun _ =>
      .ok { deref h q with A := (deref h q).A.map (npDelete (Bounds.zeroBoundLoc bd)),
                           bounds := npDelete (Bounds.zeroBoundLoc bd) bd,
                           ans := { (deref h q).ans with v := v } }) := rfl
  rw [hbody, d1]
  simp only
  rcases ha : pyAssert ((deref h q).ans.unknownLoc.length == bd.length) with e | x
  · rw [liftR_error_bind]
    exact ⟨e1, rfl⟩
  · rw [liftR_ok_bind, ok_bind]
    have hv1 : h1.vec q.v = h.vec q.v := Heap.vec_put_ne (by omega) _
    obtain ⟨x, hx, hy⟩ := zeroLoopH_run (v := q.v) (ul := (deref h q).ans.unknownLoc)
      (zs := Bounds.zeroBoundLoc bd) (h := h1) (by simpa [hh1] using l3)
      (by rw [hv1]; exact unknownLoc_lt _)
    rw [hv1] at hx hy
    have e2 : Ext q.refs h (h1.put q.v x) := e1.put (Or.inl (by simp [QRef.refs])) _
    rcases hA : assignAll (deref h q).ans.unknownLoc (h.vec q.v)
      ((Bounds.zeroBoundLoc bd).map (fun j => (j, 0))) with e | y
    · rw [hA] at hx
      rw [bind_error hx]
      have : assignAll (deref h q).ans.unknownLoc (deref h q).ans.v
        ((Bounds.zeroBoundLoc bd).map (fun j => (j, 0))) = .error e := hA
      rw [this]
      exact ⟨e2, rfl⟩
    · have hxy := hy y hA
      subst hxy
      rw [hA] at hx
      rw [bind_ok hx]
      have : assignAll (deref h q).ans.unknownLoc (deref h q).ans.v
        ((Bounds.zeroBoundLoc bd).map (fun j => (j, 0))) = .ok x := hA
      rw [this, ok_bind, getV_bind, newV_bind, getM_bind, newM_bind, getV_bind]
      set h2 := h1.put q.v x with hh2
      have hb2 : h2.vec q.bounds = bd := by
        rw [hh2, Heap.vec_put_ne (by omega), hh1, Heap.vec_put_same l2]
      have hn2 : h2.nv = h.nv := by rw [hh2, Heap.nv_put, hh1, Heap.nv_put]
      have hm2 : h2.nm = h.nm := rfl
      have hM2 : ∀ i, h2.mat i = h.mat i := fun i => rfl
      rw [hb2, Heap.vec_pushM, Heap.vec_pushV_new]
      have e3 := (e2.pushV (npDelete (Bounds.zeroBoundLoc bd) bd)).pushM
        (((h2.pushV (npDelete (Bounds.zeroBoundLoc bd) bd)).mat q.A).map
          (npDelete (Bounds.zeroBoundLoc bd)))
      rcases hP : pyAssert ((npDelete (Bounds.zeroBoundLoc bd) bd).all (fun x => decide (x ≥ 0)))
        with e | y
      · rw [liftR_error_bind]
        exact ⟨e3, rfl⟩
      · rw [liftR_ok_bind, ok_bind, ok_bind]
        refine agree_check e3 ?_ ?_
        · unfold deref
          simp only
          rw [Heap.mat_pushM_new, Heap.vec_pushM, Heap.vec_pushM, Heap.vec_pushM, Heap.vec_pushM,
            Heap.vec_pushV_new, Heap.vec_pushV_lt (by omega), Heap.vec_pushV_lt (by omega),
            Heap.vec_pushV_lt (by omega), Heap.mat_pushV, hM2]
          rw [hh2, Heap.vec_put_same (by simpa [hh1] using l3), Heap.vec_put_ne (by omega),
            Heap.vec_put_ne (by omega), hh1, Heap.vec_put_ne (by omega), Heap.vec_put_ne (by omega)]
        · refine ⟨⟨by simp, ?_, ?_⟩, ?_, Or.inr ?_⟩
          · intro a ha
            simp [QRef.refs] at ha ⊢
            omega
          · simp [QRef.refs]
            omega
          · intro a ha
            simp [QRef.refs] at ha ⊢
            omega
          · simp only [Heap.nm_pushV]; omega

theorem npDelete_length_eq {α β : Type} {ids : List Nat} {l : List α} {m : List β}
    (h : l.length = m.length) : (npDelete ids l).length = (npDelete ids m).length := by
  rw [← keepIdx_length (ids := ids) h, ← keepIdx_length (ids := ids) rfl]

theorem rect_npDelete {A : Mat} {ids : List Nat} (h : ∀ r ∈ A, r.length = ncols A) :
    ∀ r ∈ A.map (npDelete ids), r.length = ncols (A.map (npDelete ids)) := by
  cases A with
  | nil => simp
  | cons r0 t =>
    intro r hr
    obtain ⟨r', hr', rfl⟩ := List.mem_map.1 hr
    show _ = (npDelete ids r0).length
    exact npDelete_length_eq (h r' hr')

theorem keeps_zeroInB : Keeps zeroInB := by
  intro Q Q' w h
  unfold zeroInB at h
  obtain ⟨Q1, h1, h⟩ := bind_eq_ok.1 h
  have hl := checkAfter_len h
  rw [checkAfter_eq h]
  unfold zeroInBBody at h1
  simp only at h1
  obtain ⟨_, _, h1⟩ := bind_eq_ok.1 h1
  obtain ⟨v, hv, h1⟩ := bind_eq_ok.1 h1
  obtain ⟨_, hb, h1⟩ := bind_eq_ok.1 h1
  have := (Except.ok.inj h1).symm
  subst this
  refine ⟨rect_npDelete w.rect, by simpa using w.blen, hl, w.b0, ?_, w.quota0, ?_⟩
  · have := pyAssert_ok' hb
    rw [List.all_eq_true] at this
    intro x hx
    simpa using this x hx
  · exact ansMk_values w.ans (assignAll_len hv)

/-! ### `only_1_element_in_row` -/

theorem only1LoopH_run {v b : Nat} {ul : List Nat} (hbv : b ≠ v) :
    ∀ {rcs : List (Nat × Nat)} {quota : Int} {h : Heap}, v < h.nv →
    (∀ p ∈ ul, p < (h.vec v).length) → (∀ x ∈ h.vec b, 0 ≤ x) →
    (rcs.map (fun rc => (h.vec b).getD rc.1 0)).sum ≤ quota →
    ∃ x, only1LoopH v b ul rcs quota h =
        ((assignAll ul (h.vec v) (rcs.map (fun rc => (rc.2, (h.vec b).getD rc.1 0)))).map
          (fun _ => quota - (rcs.map (fun rc => (h.vec b).getD rc.1 0)).sum), h.put v x) ∧
      ∀ y, assignAll ul (h.vec v) (rcs.map (fun rc => (rc.2, (h.vec b).getD rc.1 0))) = .ok y → x = y
  | [], quota, h, hv, _, _, _ => by
    refine ⟨h.vec v, ?_, ?_⟩
    · show ((.ok quota : Res Int), h) = _
      rw [Heap.put_self hv]
      simp [assignAll, Except.map]
    · intro y hy; exact Except.ok.inj hy
  | (r, c) :: t, quota, h, hv, hp, h0, hq => by
    rw [only1LoopH, List.map_cons, List.map_cons, assignAll]
    rcases hg : pyGet ul c with e | p
    · refine ⟨h.vec v, ?_, ?_⟩
      · rw [liftR_error_bind, Heap.put_self hv]; rfl
      · intro y hy; cases hy
    · have hlt := hp p (pyGet_mem hg)
      have hnn : ∀ i, 0 ≤ (h.vec b).getD i 0 := by
        intro i
        by_cases hi : i < (h.vec b).length
        · rw [List.getD_eq_getElem _ _ hi]; exact h0 _ (List.getElem_mem _)
        · rw [List.getD_eq_default _ _ (by omega)]
      have hsum : 0 ≤ (t.map (fun rc => (h.vec b).getD rc.1 0)).sum := by
        exact sum_nonneg' (fun rc _ => hnn rc.1)
      rw [List.map_cons, List.sum_cons] at hq
      simp only at hq
      rw [liftR_ok_bind, getV_bind]
      simp only
      rw [bind_ok (setAt_run hlt), ok_bind, getV_bind]
      have hs := Heap.vec_put_same hv ((h.vec v).set p ((h.vec b).getD r 0))
      have hb : (h.put v ((h.vec v).set p ((h.vec b).getD r 0))).vec b = h.vec b :=
        Heap.vec_put_ne hbv _
      rw [hb, pyAssert_of (decide_eq_true (by omega)), liftR_ok_bind]
      obtain ⟨x, hx, hy⟩ := only1LoopH_run (ul := ul) hbv (rcs := t)
        (quota := quota - (h.vec b).getD r 0)
        (h := h.put v ((h.vec v).set p ((h.vec b).getD r 0)))
        (by simpa using hv) (by
          intro p' hp'
          rw [hs, List.length_set]
          exact hp p' hp') (by rw [hb]; exact h0) (by rw [hb]; omega)
      rw [hs, hb] at hx hy
      refine ⟨x, ?_, hy⟩
      rw [hx, Heap.put_put, List.sum_cons]
      simp only [sub_sub]

theorem sim_only1 : Sim only1H only1 := by
  intro h q o w
  have hlt := o.lt
  simp only [QRef.refs, List.mem_cons, List.not_mem_nil, or_false, forall_eq_or_imp,
    forall_eq] at hlt
  have hnd := o.nodup
  simp [QRef.refs] at hnd
  obtain ⟨l1, l2, l3, l4⟩ := hlt
  have hr : only1 (deref h q) =
    (only1With (Bounds.oneElementRowLocs (deref h q).A) (deref h q) >>= checkAfter) := rfl
  rw [hr]
  unfold only1H only1With
  rw [readQ_bind]
  simp only
  set rcs := Bounds.oneElementRowLocs (deref h q).A with hrcs
  rcases ha : pyAssert ((deref h q).ans.unknownLoc.length == (deref h q).bounds.length) with e | x
  · rw [liftR_error_bind]
    exact ⟨Ext.refl _ _, rfl⟩
  rw [liftR_ok_bind, ok_bind]
  by_cases c1 : rcs.isEmpty = true
  · rw [if_pos c1, if_pos c1]
    exact sim_check h q o w
  rw [if_neg c1, if_neg c1]
  by_cases c2 : rcs.any (fun rc => decide ((deref h q).b.getD rc.1 0 > (deref h q).bounds.getD rc.2 0))
      = true
  · rw [if_pos c2, if_pos c2]
    exact ⟨Ext.refl _ _, rfl⟩
  rw [if_neg c2, if_neg c2]
  by_cases c3 : (rcs.map (fun rc => (deref h q).b.getD rc.1 0)).sum > (deref h q).quota
  · rw [if_pos c3, if_pos c3]
    exact ⟨Ext.refl _ _, rfl⟩
  rw [if_neg c3, if_neg c3]
  set upd := (deref h q).A.map (fun row => i8 (dot ((rcs.map Prod.snd).map (fun c => row.getD c 0))
    (rcs.map (fun rc => (deref h q).b.getD rc.1 0)))) with hupd
  by_cases c4 : (upd.zip (deref h q).b).any (fun p => decide (p.1 > p.2)) = true
  · rw [if_pos c4, if_pos c4]
    exact ⟨Ext.refl _ _, rfl⟩
  rw [if_neg c4, if_neg c4]
  obtain ⟨x, hx, hy⟩ := only1LoopH_run (v := q.v) (b := q.b) (ul := (deref h q).ans.unknownLoc)
    (by omega) (rcs := rcs) (quota := q.quota) (h := h) l3 (unknownLoc_lt _) w.b0 (not_lt.1 c3)
  have e2 : Ext q.refs h (h.put q.v x) := (Ext.refl _ _).put (Or.inl (by simp [QRef.refs])) _
  rcases hA : assignAll (deref h q).ans.unknownLoc (h.vec q.v)
    (rcs.map (fun rc => (rc.2, (h.vec q.b).getD rc.1 0))) with e | y
  · rw [hA] at hx
    rw [bind_error hx]
    have : assignAll (deref h q).ans.unknownLoc (deref h q).ans.v
      (rcs.map (fun rc => (rc.2, (deref h q).b.getD rc.1 0))) = .error e := hA
    rw [this]
    exact ⟨e2, rfl⟩
  have hxy := hy y hA
  subst hxy
  rw [hA] at hx
  rw [bind_ok hx]
  have : assignAll (deref h q).ans.unknownLoc (deref h q).ans.v
    (rcs.map (fun rc => (rc.2, (deref h q).b.getD rc.1 0))) = .ok x := hA
  rw [this, ok_bind, getV_bind, putV_bind, getV_bind]
  rw [pyAssert_of (c := decide (_ ≥ 0)) (by simpa using not_lt.1 c3), ok_bind]
  set h2 := h.put q.v x with hh2
  have hb2 : h2.vec q.b = (deref h q).b := by rw [hh2, Heap.vec_put_ne (by omega)]; rfl
  rw [hb2]
  set b' := List.zipWith (fun x y => i8 (x - y)) (deref h q).b upd with hb'
  have hn2 : h2.nv = h.nv := by rw [hh2, Heap.nv_put]
  set h3 := h2.put q.b b' with hh3
  have hn3 : h3.nv = h.nv := by rw [hh3, Heap.nv_put, hn2]
  have e3 : Ext q.refs h h3 := e2.put (Or.inl (by simp [QRef.refs])) _
  have hb3 : h3.vec q.b = b' := by rw [hh3, Heap.vec_put_same (by omega)]
  rw [hb3]
  rcases hP : pyAssert (b'.all (fun x => decide (x ≥ 0))) with e | _
  · rw [liftR_error_bind]
    exact ⟨e3, rfl⟩
  rw [liftR_ok_bind, ok_bind, getM_bind, newM_bind, getV_bind, newV_bind, getV_bind]
  have hbd3 : h3.vec q.bounds = (deref h q).bounds := by
    rw [hh3, Heap.vec_put_ne (by omega), hh2, Heap.vec_put_ne (by omega)]; rfl
  rw [Heap.vec_pushM, hbd3, Heap.vec_pushV_new]
  have hM3 : ∀ i, h3.mat i = h.mat i := fun i => rfl
  have hm3 : h3.nm = h.nm := rfl
  have e4 := (e3.pushM ((h3.mat q.A).map (npDelete (rcs.map Prod.snd)))).pushV
    (npDelete (rcs.map Prod.snd) (deref h q).bounds)
  rcases hP : pyAssert ((npDelete (rcs.map Prod.snd) (deref h q).bounds).all
    (fun x => decide (x ≥ 0))) with e | _
  · rw [liftR_error_bind]
    exact ⟨e4, rfl⟩
  rw [liftR_ok_bind, ok_bind, ok_bind]
  refine agree_check e4 ?_ ?_
  · conv_lhs => unfold deref
    simp only
    rw [Heap.mat_pushV, Heap.mat_pushM_new, Heap.vec_pushV_new,
      Heap.vec_pushV_lt (by simp; omega), Heap.vec_pushV_lt (by simp; omega),
      Heap.vec_pushV_lt (by simp; omega), Heap.vec_pushM, Heap.vec_pushM, Heap.vec_pushM, hb3, hM3]
    have hv3 : h3.vec q.v = x := by
      rw [hh3, Heap.vec_put_ne (by omega), hh2, Heap.vec_put_same l3]
    have hl3 : h3.vec q.loc = h.vec q.loc := by
      rw [hh3, Heap.vec_put_ne (by omega), hh2, Heap.vec_put_ne (by omega)]
    rw [hv3, hl3]
    rfl
  · refine ⟨⟨by simp, ?_, ?_⟩, ?_, Or.inr ?_⟩
    · intro a ha
      simp [QRef.refs] at ha ⊢
      omega
    · simp [QRef.refs]
      omega
    · intro a ha
      simp [QRef.refs] at ha ⊢
      omega
    · show h.nm ≤ h3.nm
      omega

theorem keeps_only1 : Keeps only1 := by
  intro Q Q' w h
  unfold only1 at h
  obtain ⟨Q1, h1, h⟩ := bind_eq_ok.1 h
  have hl := checkAfter_len h
  rw [checkAfter_eq h]
  unfold only1With at h1
  simp only at h1
  obtain ⟨_, _, h1⟩ := bind_eq_ok.1 h1
  split at h1
  · rw [← Except.ok.inj h1]; exact w
  split at h1
  · cases h1
  split at h1
  · cases h1
  split at h1
  · cases h1
  obtain ⟨v, hv, h1⟩ := bind_eq_ok.1 h1
  obtain ⟨_, hq, h1⟩ := bind_eq_ok.1 h1
  obtain ⟨_, hb, h1⟩ := bind_eq_ok.1 h1
  obtain ⟨_, hbd, h1⟩ := bind_eq_ok.1 h1
  have := (Except.ok.inj h1).symm
  subst this
  refine ⟨rect_npDelete w.rect, ?_, hl, ?_, ?_, ?_, ?_⟩
  · simp [w.blen]
  · have := pyAssert_ok' hb
    rw [List.all_eq_true] at this
    intro x hx
    simpa using this x hx
  · have := pyAssert_ok' hbd
    rw [List.all_eq_true] at this
    intro x hx
    simpa using this x hx
  · simpa using pyAssert_ok' hq
  · exact ansMk_values w.ans (assignAll_len hv)

/-! ### One pass -/

theorem Keeps.comp {f f' : Question → Res Question} (k : Keeps f) (k' : Keeps f') :
    Keeps (fun Q => f Q >>= f') := by
  intro Q Q' w h
  obtain ⟨Q1, h1, h⟩ := bind_eq_ok.1 h
  exact k' _ _ (k _ _ w h1) h

theorem sim_pass : Sim passH reducePass :=
  sim_reduceCol.comp keeps_reduceCol (sim_eliminate.comp keeps_eliminate
    (sim_zeroInB.comp keeps_zeroInB sim_only1))

theorem keeps_pass : Keeps reducePass :=
  keeps_reduceCol.comp (keeps_eliminate.comp (keeps_zeroInB.comp keeps_only1))

/-! ### Copies -/

theorem questionMk_ok {Q : Question} (w : WF Q) :
    Question.mk' Q.A Q.b Q.quota Q.bounds (some Q.ans) = .ok Q := by
  unfold Question.mk'
  rw [pyAssert_of (by simpa using w.blen.symm), ok_bind,
    pyAssert_of (by simpa using w.bdlen.symm), ok_bind,
    pyAssert_of (by rw [List.all_eq_true]; intro x hx; simpa using w.b0 x hx), ok_bind,
    pyAssert_of (by simpa using w.quota0), ok_bind,
    pyAssert_of (by rw [List.all_eq_true]; intro x hx; simpa using w.bd0 x hx), ok_bind]

/-- A copy has the contents of the original, uses only new addresses and writes nothing old. -/
theorem copyH_run {h : Heap} {q : QRef} (o : Own h q) (w : WF (deref h q)) :
    ∃ d h', copyH q h = (.ok d, h') ∧ Ext [] h h' ∧ Own h' d ∧ deref h' d = deref h q ∧
      (∀ a ∈ d.refs, h.nv ≤ a) ∧ h.nm ≤ d.A := by
  have hlt := o.lt
  simp only [QRef.refs, List.mem_cons, List.not_mem_nil, or_false, forall_eq_or_imp,
    forall_eq] at hlt
  obtain ⟨l1, l2, l3, l4⟩ := hlt
  unfold copyH
  simp only [getM_bind, newM_bind, getV_bind, newV_bind, Heap.vec_pushM,
    Heap.nv_pushM, Heap.nv_pushV]
  have v1 : ((h.pushM (h.mat q.A)).pushV (h.vec q.b)).vec q.bounds = h.vec q.bounds := by
    rw [Heap.vec_pushV_lt (by simpa using l2), Heap.vec_pushM]
  rw [v1]
  have v2 : (((h.pushM (h.mat q.A)).pushV (h.vec q.b)).pushV (h.vec q.bounds)).vec q.v =
      h.vec q.v := by
    rw [Heap.vec_pushV_lt (by simp; omega), Heap.vec_pushV_lt (by simpa using l3), Heap.vec_pushM]
  rw [v2]
  have v3 : ((((h.pushM (h.mat q.A)).pushV (h.vec q.b)).pushV (h.vec q.bounds)).pushV
      (h.vec q.v)).vec q.loc = h.vec q.loc := by
    rw [Heap.vec_pushV_lt (by simp; omega), Heap.vec_pushV_lt (by simp; omega),
      Heap.vec_pushV_lt (by simpa using l4), Heap.vec_pushM]
  rw [v3]
  set h5 := ((((h.pushM (h.mat q.A)).pushV (h.vec q.b)).pushV (h.vec q.bounds)).pushV
      (h.vec q.v)).pushV (h.vec q.loc) with hh5
  have w1 : h5.vec h.nv = h.vec q.b := by
    rw [hh5, Heap.vec_pushV_lt (by simp only [Heap.nv_pushV, Heap.nv_pushM]; omega),
      Heap.vec_pushV_lt (by simp only [Heap.nv_pushV, Heap.nv_pushM]; omega),
      Heap.vec_pushV_lt (by simp only [Heap.nv_pushV, Heap.nv_pushM]; omega), show h.nv = (h.pushM (h.mat q.A)).nv by simp, Heap.vec_pushV_new]
  have w2 : h5.vec (h.nv + 1) = h.vec q.bounds := by
    rw [hh5, Heap.vec_pushV_lt (by simp), Heap.vec_pushV_lt (by simp),
      show h.nv + 1 = ((h.pushM (h.mat q.A)).pushV (h.vec q.b)).nv by simp, Heap.vec_pushV_new]
  have w3 : h5.vec (h.nv + 1 + 1) = h.vec q.v := by
    rw [hh5, Heap.vec_pushV_lt (by simp), show h.nv + 1 + 1 =
      (((h.pushM (h.mat q.A)).pushV (h.vec q.b)).pushV (h.vec q.bounds)).nv by simp,
      Heap.vec_pushV_new]
  have w4 : h5.vec (h.nv + 1 + 1 + 1) = h.vec q.loc := by
    rw [hh5, show h.nv + 1 + 1 + 1 = ((((h.pushM (h.mat q.A)).pushV (h.vec q.b)).pushV
      (h.vec q.bounds)).pushV (h.vec q.v)).nv by simp, Heap.vec_pushV_new]
  have wA : h5.mat h.nm = h.mat q.A := by
    rw [hh5]; simp
  rw [w3, w4]
  have ha : Answer.mk' (h.vec q.v) (h.vec q.loc) q.len = .ok (deref h q).ans := w.ans
  rw [ha, liftR_ok_bind, getM_bind, getV_bind, getV_bind, w1, w2, wA]
  have hq : Question.mk' (h.mat q.A) (h.vec q.b) q.quota (h.vec q.bounds) (some (deref h q).ans) =
    .ok (deref h q) := questionMk_ok w
  rw [hq, liftR_ok_bind, pure_run]
  have e : Ext [] h h5 :=
    ((((Ext.refl [] h).pushM _).pushV _).pushV _ |>.pushV _).pushV _
  refine ⟨_, _, rfl, e, ⟨?_, ?_, ?_⟩, ?_, ?_, le_refl _⟩
  · simp [hh5]
  · intro a ha
    simp [QRef.refs, hh5] at ha ⊢
    omega
  · simp [QRef.refs]
    omega
  · unfold deref
    simp only
    rw [w1, w2, w3, w4, wA]
  · intro a ha
    simp [QRef.refs] at ha
    omega

/-! ### `fork_enum` -/

/-- One child of `fork_enum` on values. -/
def forkChild (Q : Question) (minloc : Nat) (acol : Vec) (newA : Mat) (newBound : Vec)
    (qr : Int × Int) : Res (Option Question) := do
  let newB := List.zipWith (fun b a => i8 (b - a * qr.1)) Q.b acol
  if newB.any (fun x => decide (x < 0)) then .ok none
  else do
    let p ← pyGet Q.ans.unknownLoc minloc
    let ans := { Q.ans with v := Q.ans.v.set p qr.1 }
    let q ← Question.mk' newA newB qr.2 newBound (some ans)
    .ok (some q)

/-- Result of building children in memory. -/
structure Kids (h h' : Heap) (qs : List QRef) (Qs : List Question) : Prop where
  deref : qs.map (deref h') = Qs
  own : ∀ c ∈ qs, Own h' c
  new : ∀ c ∈ qs, ∀ a ∈ c.refs, h.nv ≤ a
  newM : ∀ c ∈ qs, h.nm ≤ c.A
  apart : qs.Pairwise (fun c d => (∀ a ∈ c.refs, a ∉ d.refs) ∧ c.A ≠ d.A)

theorem questionMk_eq {A b quota bounds ans Q} (h : Question.mk' A b quota bounds (some ans) = .ok Q) :
    Q = ⟨A, b, quota, bounds, ans⟩ ∧ b.length = A.length ∧ bounds.length = ncols A ∧
      (∀ x ∈ b, 0 ≤ x) ∧ (∀ x ∈ bounds, 0 ≤ x) ∧ 0 ≤ quota := by
  unfold Question.mk' at h
  obtain ⟨_, h1, h⟩ := bind_eq_ok.1 h
  obtain ⟨_, h2, h⟩ := bind_eq_ok.1 h
  obtain ⟨_, h3, h⟩ := bind_eq_ok.1 h
  obtain ⟨_, h4, h⟩ := bind_eq_ok.1 h
  obtain ⟨_, h5, h⟩ := bind_eq_ok.1 h
  have h1 := pyAssert_ok' h1
  have h2 := pyAssert_ok' h2
  have h3 := pyAssert_ok' h3
  have h4 := pyAssert_ok' h4
  have h5 := pyAssert_ok' h5
  rw [List.all_eq_true] at h3 h5
  refine ⟨(Except.ok.inj h).symm, by simpa using (by simpa using h1 : A.length = b.length).symm,
    (by simpa using h2 : ncols A = bounds.length).symm, ?_, ?_, by simpa using h4⟩
  · intro x hx; simpa using h3 x hx
  · intro x hx; simpa using h5 x hx

theorem Heap.vec_pushV_last {h : Heap} {x : Vec} {n : Nat} (hn : n = h.nv) : (h.pushV x).vec n = x := by
  rw [hn, Heap.vec_pushV_new]

theorem forkLoopH_run {q : QRef} {minloc : Nat} {acol : Vec} {newA newBound : Nat} {Q : Question}
    {P : Mat} {B : Vec} (w : WF Q) :
    ∀ {l : List (Int × Int)} {h : Heap}, Own h q → deref h q = Q → newA < h.nm → newBound < h.nv →
    h.mat newA = P → h.vec newBound = B →
    Ext [] h (forkLoopH q Q.ans.unknownLoc minloc acol newA newBound l h).2 ∧
    match (forkLoopH q Q.ans.unknownLoc minloc acol newA newBound l h).1,
      l.mapM (forkChild Q minloc acol P B) with
    | .ok qs, .ok os =>
      Kids h (forkLoopH q Q.ans.unknownLoc minloc acol newA newBound l h).2 qs (os.filterMap id)
    | .error e, .error e' => e = e'
    | _, _ => False
  | [], h, _, _, _, _, _, _ => by
    refine ⟨Ext.refl _ _, ?_⟩
    show Kids h h [] []
    exact ⟨rfl, by simp, by simp, by simp, List.Pairwise.nil⟩
  | (used, rest) :: t, h, o, d, hA, hB, eA, eB => by
    have hlt := o.lt
    simp only [QRef.refs, List.mem_cons, List.not_mem_nil, or_false, forall_eq_or_imp,
      forall_eq] at hlt
    obtain ⟨l1, l2, l3, l4⟩ := hlt
    have hb : h.vec q.b = Q.b := by rw [← d]; rfl
    have hv : h.vec q.v = Q.ans.v := by rw [← d]; rfl
    have hl : h.vec q.loc = Q.ans.loc := by rw [← d]; rfl
    have hn : q.len = Q.ans.len := by rw [← d]; rfl
    rw [List.mapM_cons]
    set newB := List.zipWith (fun b a => i8 (b - a * used)) Q.b acol with hnewB
    set h1 := h.pushV newB with hh1
    have n1 : h1.nv = h.nv + 1 := by rw [hh1, Heap.nv_pushV]
    have e1 : Ext [] h h1 := (Ext.refl [] h).pushV _
    have step : forkLoopH q Q.ans.unknownLoc minloc acol newA newBound ((used, rest) :: t) h =
        (if newB.any (fun x => decide (x < 0)) then
            forkLoopH q Q.ans.unknownLoc minloc acol newA newBound t
          else do
            let v ← newV (← getV q.v)
            let loc ← newV (← getV q.loc)
            let _ ← liftR (Answer.mk' (← getV v) (← getV loc) q.len)
            let p ← liftR (pyGet Q.ans.unknownLoc minloc)
            setAt v p used
            let A ← newM (← getM newA)
            let bounds ← newV (← getV newBound)
            let ans : Answer := { v := ← getV v, loc := ← getV loc, len := q.len }
            let _ ← liftR (Question.mk' (← getM A) (← getV h.nv) rest (← getV bounds) (some ans))
            let more ← forkLoopH q Q.ans.unknownLoc minloc acol newA newBound t
            pure ({ A := A, b := h.nv, bounds := bounds, v := v, loc := loc, quota := rest,
                    len := q.len } :: more)) h1 := by
      rw [forkLoopH, getV_bind, newV_bind, getV_bind, Heap.vec_pushV_new, hb]
    rw [step]
    by_cases hneg : newB.any (fun x => decide (x < 0)) = true
    · rw [if_pos hneg]
      have hc : forkChild Q minloc acol P B (used, rest) = .ok none := by
        unfold forkChild; simp only; rw [if_pos hneg]
      rw [hc, ok_bind]
      obtain ⟨ea, ra⟩ := forkLoopH_run w (l := t) (h := h1) (acol := acol) (minloc := minloc)
        (newA := newA) (newBound := newBound) (P := P) (B := B) (o.ext e1)
        (by rw [deref_ext o e1 (by simp), d]) (lt_of_lt_of_le hA e1.nm) (by omega)
        (by rw [← eA]; rfl) (by rw [hh1, Heap.vec_pushV_lt hB, eB])
      refine ⟨e1.trans ea (by simp), ?_⟩
      rcases hx : (forkLoopH q Q.ans.unknownLoc minloc acol newA newBound t h1).1 with e | qs <;>
        rcases hy : t.mapM (forkChild Q minloc acol P B) with e' | os <;> rw [hx, hy] at ra <;>
        simp only at ra
      · exact ra
      · refine ⟨ra.deref, ra.own, ?_, ?_, ra.apart⟩
        · intro c hc a ha
          have := ra.new c hc a ha
          omega
        · exact ra.newM
    · rw [if_neg hneg]
      have k1 : h1.vec q.v = Q.ans.v := by rw [hh1, Heap.vec_pushV_lt l3, hv]
      set h2 := h1.pushV Q.ans.v with hh2
      have n2 : h2.nv = h.nv + 2 := by rw [hh2, Heap.nv_pushV, n1]
      have k2 : h2.vec q.loc = Q.ans.loc := by
        rw [hh2, Heap.vec_pushV_lt (by omega), hh1, Heap.vec_pushV_lt l4, hl]
      set h3 := h2.pushV Q.ans.loc with hh3
      have n3 : h3.nv = h.nv + 3 := by rw [hh3, Heap.nv_pushV, n2]
      have k3 : h3.vec (h.nv + 1) = Q.ans.v := by
        rw [hh3, Heap.vec_pushV_lt (by omega), hh2, Heap.vec_pushV_last n1.symm]
      have k4 : h3.vec (h.nv + 2) = Q.ans.loc := by
        rw [hh3, Heap.vec_pushV_last n2.symm]
      have k5 : h3.vec h.nv = newB := by
        rw [hh3, Heap.vec_pushV_lt (by omega), hh2, Heap.vec_pushV_lt (by omega), hh1,
          Heap.vec_pushV_new]
      have e3 : Ext [] h h3 := (e1.pushV _).pushV _
      rw [getV_bind, newV_bind, getV_bind, k1, ← hh2, newV_bind, k2, ← hh3, getV_bind, getV_bind,
        n1, n2, k3, k4, hn, w.ans, liftR_ok_bind]
      have hc : forkChild Q minloc acol P B (used, rest) = (do
          let p ← pyGet Q.ans.unknownLoc minloc
          let ans := { Q.ans with v := Q.ans.v.set p used }
          let q ← Question.mk' P newB rest B (some ans)
          .ok (some q)) := by
        unfold forkChild; simp only; rw [if_neg hneg]
      rw [hc]
      rcases hg : pyGet Q.ans.unknownLoc minloc with e | p
      · rw [liftR_error_bind]
        exact ⟨e3, rfl⟩
      have hp : p < Q.ans.v.length := unknownLoc_lt _ p (pyGet_mem hg)
      rw [liftR_ok_bind, ok_bind, bind_ok (setAt_run (by rw [k3]; exact hp)), k3]
      set h4 := h3.put (h.nv + 1) (Q.ans.v.set p used) with hh4
      have n4 : h4.nv = h.nv + 3 := by rw [hh4, Heap.nv_put, n3]
      have e4 : Ext [] h h4 := e3.put (Or.inr (by omega)) _
      have m4 : h4.nm = h.nm := rfl
      have k6 : h4.mat newA = P := by rw [← eA]; rfl
      rw [getM_bind, newM_bind, getV_bind, newV_bind, getV_bind, getV_bind, getM_bind, getV_bind,
        getV_bind, k6]
      set h5 := h4.pushM P with hh5
      have n5 : h5.nv = h.nv + 3 := n4
      have k7 : h5.vec newBound = B := by
        rw [hh5, Heap.vec_pushM, e4.vec _ hB (by simp), eB]
      rw [k7]
      set h6 := h5.pushV B with hh6
      have n6 : h6.nv = h.nv + 4 := by rw [hh6, Heap.nv_pushV, n5]
      have m6 : h6.nm = h.nm + 1 := by rw [hh6, Heap.nm_pushV, hh5, Heap.nm_pushM, m4]
      have e6 : Ext [] h h6 := (e4.pushM _).pushV _
      have v1 : h6.vec (h.nv + 1) = Q.ans.v.set p used := by
        rw [hh6, Heap.vec_pushV_lt (by omega), hh5, Heap.vec_pushM, hh4,
          Heap.vec_put_same (by omega)]
      have v2 : h6.vec (h.nv + 2) = Q.ans.loc := by
        rw [hh6, Heap.vec_pushV_lt (by omega), hh5, Heap.vec_pushM, hh4,
          Heap.vec_put_ne (by omega), k4]
      have v3 : h6.vec h.nv = newB := by
        rw [hh6, Heap.vec_pushV_lt (by omega), hh5, Heap.vec_pushM, hh4,
          Heap.vec_put_ne (by omega), k5]
      have v4 : h6.vec (h.nv + 3) = B := by
        rw [hh6, Heap.vec_pushV_last n5.symm]
      have v5 : h6.mat h.nm = P := by
        rw [hh6, Heap.mat_pushV, hh5, ← m4, Heap.mat_pushM_new]
      rw [n5, m4, v1, v2, v3, v4, v5]
      have hans : ({ v := Q.ans.v.set p used, loc := Q.ans.loc, len := Q.ans.len } : Answer) =
        { Q.ans with v := Q.ans.v.set p used } := rfl
      rw [hans]
      rcases hm : Question.mk' P newB rest B (some { Q.ans with v := Q.ans.v.set p used })
        with e | Q1
      · rw [liftR_error_bind]
        exact ⟨e6, by simp [hm, bind, Except.bind]⟩
      rw [liftR_ok_bind]
      simp only [hm, ok_bind]
      obtain ⟨ea, ra⟩ := forkLoopH_run w (l := t) (h := h6) (acol := acol) (minloc := minloc)
        (newA := newA) (newBound := newBound) (P := P) (B := B) (o.ext e6)
        (by rw [deref_ext o e6 (by simp), d]) (by omega) (by omega)
        (by rw [e6.mat _ hA, eA]) (by rw [e6.vec _ hB (by simp), eB])
      set c : QRef := ⟨h.nm, h.nv, h.nv + 3, h.nv + 1, h.nv + 2, rest, Q.ans.len⟩ with hcd
      have oc : Own h6 c := by
        refine ⟨by simp only [hcd]; omega, ?_, ?_⟩
        · intro a ha
          simp [QRef.refs, hcd] at ha
          omega
        · simp [QRef.refs, hcd]
      have dc : deref h6 c = Q1 := by
        rw [(questionMk_eq hm).1]
        unfold deref
        simp only [hcd]
        rw [v1, v2, v3, v4, v5]
      rcases hx : forkLoopH q Q.ans.unknownLoc minloc acol newA newBound t h6 with ⟨x, h7⟩
      rw [hx] at ea ra
      rcases hy : t.mapM (forkChild Q minloc acol P B) with e' | os <;> rw [hy] at ra <;>
        rcases x with e | qs <;> simp only at ra ea
      · rw [bind_error hx]
        exact ⟨e6.trans ea (by simp), ra⟩
      · rw [bind_ok hx, pure_run]
        refine ⟨e6.trans ea (by simp), ?_⟩
        show Kids h h7 (c :: qs) (Q1 :: os.filterMap id)
        refine ⟨?_, ?_, ?_, ?_, ?_⟩
        · rw [List.map_cons, deref_ext oc ea (by simp), dc, ra.deref]
        · intro c' hc'
          rcases List.mem_cons.1 hc' with rfl | h'
          · exact oc.ext ea
          · exact ra.own _ h'
        · intro c' hc' a ha
          rcases List.mem_cons.1 hc' with rfl | h'
          · simp [QRef.refs, hcd] at ha
            omega
          · have := ra.new _ h' a ha
            omega
        · intro c' hc'
          rcases List.mem_cons.1 hc' with rfl | h'
          · exact le_refl _
          · have := ra.newM _ h'
            omega
        · refine List.Pairwise.cons ?_ ra.apart
          intro c' hc'
          refine ⟨?_, ?_⟩
          · intro a ha hb
            have := ra.new _ hc' a hb
            have := oc.lt a ha
            omega
          · have := ra.newM _ hc'
            have := oc.mat
            omega

theorem forkChild_wf {Q Q1 : Question} {minloc : Nat} {qr : Int × Int} (w : WF Q)
    (h : forkChild Q minloc (Fork.popCol Q.A minloc).1 (Fork.popCol Q.A minloc).2
      (npDelete [minloc] Q.bounds) qr = .ok (some Q1)) : WF Q1 := by
  unfold forkChild at h
  simp only at h
  split at h
  · cases h
  obtain ⟨p, _, h⟩ := bind_eq_ok.1 h
  obtain ⟨q, hq, h⟩ := bind_eq_ok.1 h
  have : q = Q1 := Option.some.inj (Except.ok.inj h)
  subst this
  obtain ⟨e, h1, h2, h3, h4, h5⟩ := questionMk_eq hq
  subst e
  exact ⟨rect_npDelete w.rect, h1, h2, h3, h4, h5, ansMk_values w.ans (by simp)⟩

theorem mapM_mem {α β : Type} {f : α → Res β} {l : List α} {r : List β} (h : l.mapM f = .ok r)
    {y : β} (hy : y ∈ r) : ∃ x ∈ l, f x = .ok y := by
  induction l generalizing r with
  | nil =>
    rw [List.mapM_nil] at h
    rw [← Except.ok.inj h] at hy; cases hy
  | cons a t ih =>
    rw [List.mapM_cons] at h
    obtain ⟨b, hb, h⟩ := bind_eq_ok.1 h
    obtain ⟨bs, hbs, h⟩ := bind_eq_ok.1 h
    rw [← Except.ok.inj h] at hy
    rcases List.mem_cons.1 hy with rfl | h'
    · exact ⟨a, by simp, hb⟩
    · obtain ⟨x, hx, e⟩ := ih hbs h'
      exact ⟨x, by simp [hx], e⟩

/-- The enumeration in memory: children with the right contents, all arrays new and not shared. -/
theorem forkEnumH_run {h : Heap} {q : QRef} (o : Own h q) (w : WF (deref h q)) :
    Ext [] h (forkEnumH q h).2 ∧
    match (forkEnumH q h).1, forkEnum (deref h q) with
    | .ok qs, .ok Qs => Kids h (forkEnumH q h).2 qs Qs ∧ ∀ Q ∈ Qs, WF Q
    | .error e, .error e' => e = e'
    | _, _ => False := by
  unfold forkEnumH forkEnum
  have hc : checkAfterH q h = ((checkAfter (deref h q)).map (fun _ => q), h) := checkAfterH_run
  rcases hk : checkAfter (deref h q) with e | Q0
  · rw [hk] at hc
    rw [bind_error hc]
    exact ⟨Ext.refl _ _, rfl⟩
  rw [hk] at hc
  rw [bind_ok hc, ok_bind, readQ_bind, checkAfter_eq hk]
  simp only
  rcases ha : pyAssert (decide ((deref h q).ans.unknownLoc.length > 0)) with e | _
  · rw [liftR_error_bind]
    exact ⟨Ext.refl _ _, rfl⟩
  rw [liftR_ok_bind, ok_bind]
  rcases hm : npArgmin (deref h q).bounds with e | minloc
  · rw [liftR_error_bind]
    exact ⟨Ext.refl _ _, rfl⟩
  rw [liftR_ok_bind, ok_bind, newV_bind, newM_bind]
  set B := npDelete [minloc] (deref h q).bounds with hB
  set P := (Fork.popCol (deref h q).A minloc).2 with hP
  set h2 := (h.pushV B).pushM P with hh2
  have e2 : Ext [] h h2 := ((Ext.refl [] h).pushV _).pushM _
  rcases hf : Fork.enum (deref h q).quota (deref h q).bounds minloc with e | l
  · rw [liftR_error_bind]
    exact ⟨e2, rfl⟩
  rw [liftR_ok_bind, ok_bind]
  have main := forkLoopH_run (q := q) (minloc := minloc)
    (acol := (Fork.popCol (deref h q).A minloc).1) (newA := (h.pushV B).nm) (newBound := h.nv)
    (P := P) (B := B) w (l := l) (h := h2) (o.ext e2) (deref_ext o e2 (by simp))
    (by simp [hh2]) (by simp [hh2])
    (by rw [hh2, Heap.mat_pushM_new]) (by rw [hh2, Heap.vec_pushM, Heap.vec_pushV_new])
  obtain ⟨ea, ra⟩ := main
  refine ⟨e2.trans ea (by simp), ?_⟩
  have hch : (fun qr : Int × Int => (do
      let newB := List.zipWith (fun b a => i8 (b - a * qr.1)) (deref h q).b
        (Fork.popCol (deref h q).A minloc).1
      if newB.any (fun x => decide (x < 0)) then .ok none
      else do
        let p ← pyGet (deref h q).ans.unknownLoc minloc
        let ans := { (deref h q).ans with v := (deref h q).ans.v.set p qr.1 }
        let q ← Question.mk' P newB qr.2 B (some ans)
        .ok (some q) : Res (Option Question))) =
    forkChild (deref h q) minloc (Fork.popCol (deref h q).A minloc).1 P B := rfl
  show match (forkLoopH q (deref h q).ans.unknownLoc minloc (Fork.popCol (deref h q).A minloc).1
      (h.pushV B).nm h.nv l h2).1,
    (l.mapM (forkChild (deref h q) minloc (Fork.popCol (deref h q).A minloc).1 P B) >>=
      fun outs => .ok (outs.filterMap id)) with
    | .ok qs, .ok Qs => Kids h (forkLoopH q (deref h q).ans.unknownLoc minloc
        (Fork.popCol (deref h q).A minloc).1 (h.pushV B).nm h.nv l h2).2 qs Qs ∧ ∀ Q ∈ Qs, WF Q
    | .error e, .error e' => e = e'
    | _, _ => False
  rcases hx : forkLoopH q (deref h q).ans.unknownLoc minloc (Fork.popCol (deref h q).A minloc).1
      (h.pushV B).nm h.nv l h2 with ⟨x, h3⟩
  rw [hx] at ra
  rcases hy : l.mapM (forkChild (deref h q) minloc (Fork.popCol (deref h q).A minloc).1 P B)
    with e' | os <;> rw [hy] at ra <;> rcases x with e | qs <;> simp only at ra
  · exact ra
  · refine ⟨⟨ra.deref, ra.own, ?_, ?_, ra.apart⟩, ?_⟩
    · intro c hc a ha
      have := ra.new c hc a ha
      have := e2.nv
      omega
    · intro c hc
      have := ra.newM c hc
      have := e2.nm
      omega
    · intro Q1 hQ1
      obtain ⟨y, hy1, hy2⟩ := List.mem_filterMap.1 hQ1
      simp only [id] at hy2
      subst hy2
      obtain ⟨qr, -, hqr⟩ := mapM_mem hy hy1
      exact forkChild_wf w hqr

/-! ### The inner loop -/

theorem loopH_run : ∀ {n : Nat} {q : QRef} {h : Heap}, Own h q →
    WF (deref h q) → Agree h q (loopH n q h) (reduceLoop n (deref h q)) := by
  intro n
  induction n with
  | zero => intro q h _ _; exact ⟨Ext.refl _ _, rfl⟩
  | succ n ih =>
    intro q h o w
    obtain ⟨d, h1, hd, e1, od, dd, dn, dA⟩ := copyH_run o w
    unfold loopH reduceLoop
    rw [bind_ok hd]
    have o1 := o.ext e1
    have d1 : deref h1 q = deref h q := deref_ext o e1 (by simp)
    have e1' : Ext q.refs h h1 := (Ext.refl _ _).trans e1 (by simp)
    have a := sim_pass h1 q o1 (by rw [d1]; exact w)
    rw [d1] at a
    obtain ⟨e2, a⟩ := a
    rcases hm : passH q h1 with ⟨x, h2⟩
    rw [hm] at a e2
    rcases hf : reducePass (deref h q) with y | Q1 <;> rw [hf] at a <;> rcases x with x | q1 <;>
      simp only at a e2
    · rw [bind_error hm]
      exact ⟨e1'.trans e2 (fun a ha => Or.inl ha), a⟩
    · obtain ⟨a1, fr⟩ := a
      rw [bind_ok hm, ok_bind, readQ_bind, readQ_bind, a1]
      have hD : deref h2 d = deref h q := by
        rw [deref_ext od e2, dd]
        intro a ha hq
        have := dn a ha
        have := o.lt a hq
        omega
      rw [hD]
      have e12 : Ext q.refs h h2 := e1'.trans e2 (fun a ha => Or.inl ha)
      have fr' : From h q h2 q1 := by
        refine From.trans e1 (q' := q) ⟨o1, fun a ha => Or.inl ha, Or.inl rfl⟩ fr
      by_cases hE : Q1 = deref h q
      · rw [if_pos hE, if_pos hE]
        exact ⟨e12, a1, fr'⟩
      · rw [if_neg hE, if_neg hE]
        have w1 : WF (deref h2 q1) := by rw [a1]; exact keeps_pass _ _ w hf
        obtain ⟨e3, a3⟩ := ih fr'.own w1
        rw [a1] at a3
        refine ⟨e12.trans e3 fr'.refs, ?_⟩
        rcases hx : loopH n q1 h2 with ⟨x, h3⟩
        rw [hx] at a3
        rcases hy : reduceLoop n Q1 with e' | Q2 <;> rw [hy] at a3 <;> rcases x with e | q2 <;>
          simp only at a3 ⊢
        · exact a3
        · exact ⟨a3.1, From.trans e12 fr' a3.2⟩

/-! ### One question -/

/-- `visitH` before exceptions are caught. -/
def visitBodyH (q : QRef) : HM (List Vec × List QRef) := do
  let Q ← readQ q
  let q ← loopH (reduceFuel Q) q
  let Q ← readQ q
  if Q.ans.unknown then do
    let qs ← forkEnumH q
    pure ([], qs)
  else do
    let a ← liftR Q.ans.binarize
    pure ([a], [])

/-- `visit` before exceptions are caught. -/
def visitBody (Q : Question) : Res (List Vec × List Question) := do
  let Q ← reduceLoop (reduceFuel Q) Q
  if Q.ans.unknown then do
    let qs ← forkEnum Q
    .ok ([], qs)
  else do
    let a ← Q.ans.binarize
    .ok ([a], [])

theorem keeps_loop : ∀ n, Keeps (reduceLoop n) := by
  intro n
  induction n with
  | zero => intro Q Q' _ h; cases h
  | succ n ih =>
    intro Q Q' w h
    unfold reduceLoop at h
    obtain ⟨Q1, h1, h⟩ := bind_eq_ok.1 h
    split at h
    · rw [← Except.ok.inj h]; exact keeps_pass _ _ w h1
    · exact ih _ _ (keeps_pass _ _ w h1) h

/-- Outcome of treating one question in memory against the outcome on values. -/
def AgreeV (h : Heap) (q : QRef) (x : Res (List Vec × List QRef) × Heap)
    (r : Res (List Vec × List Question)) : Prop :=
  Ext q.refs h x.2 ∧
    match x.1, r with
    | .ok p, .ok p' => p.1 = p'.1 ∧ Kids h x.2 p.2 p'.2 ∧ ∀ Q ∈ p'.2, WF Q
    | .error e, .error e' => e = e'
    | _, _ => False

theorem kids_nil (h h' : Heap) : Kids h h' [] [] :=
  ⟨rfl, by simp, by simp, by simp, List.Pairwise.nil⟩

theorem visitBodyH_run {h : Heap} {q : QRef} (o : Own h q) (w : WF (deref h q)) :
    AgreeV h q (visitBodyH q h) (visitBody (deref h q)) := by
  unfold visitBodyH visitBody
  rw [readQ_bind]
  obtain ⟨e1, a1⟩ := loopH_run (n := reduceFuel (deref h q)) o w
  rcases hm : loopH (reduceFuel (deref h q)) q h with ⟨x, h1⟩
  rw [hm] at a1 e1
  rcases hf : reduceLoop (reduceFuel (deref h q)) (deref h q) with y | Q1 <;> rw [hf] at a1 <;>
    rcases x with x | q1 <;> simp only at a1 e1
  · rw [bind_error hm]
    exact ⟨e1, a1⟩
  obtain ⟨d1, f1⟩ := a1
  rw [bind_ok hm, ok_bind, readQ_bind, d1]
  by_cases hu : Q1.ans.unknown = true
  · rw [if_pos hu, if_pos hu]
    have w1 : WF (deref h1 q1) := by rw [d1]; exact keeps_loop _ _ _ w hf
    obtain ⟨e2, a2⟩ := forkEnumH_run f1.own w1
    rw [d1] at a2
    rcases hm2 : forkEnumH q1 h1 with ⟨x, h2⟩
    rw [hm2] at a2 e2
    rcases hf2 : forkEnum Q1 with y | Qs <;> rw [hf2] at a2 <;>
      rcases x with x | qs <;> simp only at a2 e2
    · rw [bind_error hm2]
      exact ⟨e1.trans e2 (by simp), a2⟩
    · rw [bind_ok hm2, pure_run, ok_bind]
      obtain ⟨k, wk⟩ := a2
      refine ⟨e1.trans e2 (by simp), rfl, ⟨k.deref, k.own, ?_, ?_, k.apart⟩, wk⟩
      · intro c hc a ha
        exact e1.nv.trans (k.new c hc a ha)
      · intro c hc
        exact e1.nm.trans (k.newM c hc)
  · rw [if_neg hu, if_neg hu]
    rcases hb : Q1.ans.binarize with e | a
    · rw [liftR_error_bind]
      exact ⟨e1, rfl⟩
    · rw [liftR_ok_bind, pure_run, ok_bind]
      exact ⟨e1, rfl, kids_nil _ _, by simp⟩

theorem visitH_run {h : Heap} {q : QRef} (o : Own h q) (w : WF (deref h q)) :
    AgreeV h q (visitH q h) (visit (deref h q)) := by
  have key := visitBodyH_run o w
  have e1 : visitH q h = match visitBodyH q h with
    | (.error .noSolution, h') => (.ok ([], []), h')
    | r => r := rfl
  have e2 : visit (deref h q) = match visitBody (deref h q) with
    | .error .noSolution => .ok ([], [])
    | r => r := rfl
  rw [e1, e2]
  obtain ⟨e, a⟩ := key
  rcases hx : visitBodyH q h with ⟨x, h1⟩
  rw [hx] at e a
  rcases hy : visitBody (deref h q) with y | p' <;> rw [hy] at a <;> rcases x with x | p <;>
    simp only at a e
  · subst a
    cases x <;> first | exact ⟨e, rfl, kids_nil _ _, by simp⟩ | exact ⟨e, rfl⟩
  · exact ⟨e, a⟩

/-! ### The stack -/

/-- Questions on the stack are allocated, well formed and share no array. -/
structure Stack (h : Heap) (st : List QRef) : Prop where
  own : ∀ q ∈ st, Own h q
  wf : ∀ q ∈ st, WF (deref h q)
  apart : st.Pairwise (fun c d => ∀ a ∈ c.refs, a ∉ d.refs)

/-- Popping the top, treating it and pushing the children: the rest of the stack keeps its contents
and nothing is shared. -/
theorem Stack.step {h h' : Heap} {q : QRef} {st qs : List QRef} {Qs : List Question}
    (s : Stack h (q :: st)) (e : Ext q.refs h h') (k : Kids h h' qs Qs) (wk : ∀ Q ∈ Qs, WF Q) :
    Stack h' (qs.reverse ++ st) ∧
      (qs.reverse ++ st).map (deref h') = Qs.reverse ++ st.map (deref h) := by
  have hp := List.pairwise_cons.1 s.apart
  have hd : ∀ c ∈ st, deref h' c = deref h c := by
    intro c hc
    refine deref_ext (s.own c (by simp [hc])) e ?_
    intro a ha hq
    exact hp.1 c hc a hq ha
  refine ⟨⟨?_, ?_, ?_⟩, ?_⟩
  · intro c hc
    rcases List.mem_append.1 hc with h1 | h1
    · exact k.own c (List.mem_reverse.1 h1)
    · exact (s.own c (by simp [h1])).ext e
  · intro c hc
    rcases List.mem_append.1 hc with h1 | h1
    · refine wk _ ?_
      rw [← k.deref]
      exact List.mem_map_of_mem (List.mem_reverse.1 h1)
    · rw [hd c h1]; exact s.wf c (by simp [h1])
  · refine List.pairwise_append.2 ⟨?_, hp.2, ?_⟩
    · rw [List.pairwise_reverse]
      refine k.apart.imp ?_
      intro c d hcd a ha hb
      exact hcd.1 a hb ha
    · intro c hc d hdm a ha hb
      have h1 := k.new c (List.mem_reverse.1 hc) a ha
      have h2 := (s.own d (by simp [hdm])).lt a hb
      omega
  · rw [List.map_append, List.map_reverse, k.deref]
    congr 1
    exact List.map_congr_left hd

theorem solveLoopH_run : ∀ {n : Nat} {st : List QRef} {h : Heap}, Stack h st →
    (solveLoopH n st h).1 = solveLoop n (st.map (deref h)) := by
  intro n
  induction n with
  | zero =>
    intro st h s
    cases st <;> rfl
  | succ n ih =>
    intro st h s
    cases st with
    | nil => rfl
    | cons q st =>
      rw [List.map_cons, solveLoop, solveLoopH]
      obtain ⟨e, a⟩ := visitH_run (s.own q (by simp)) (s.wf q (by simp))
      rcases hx : visitH q h with ⟨x, h1⟩
      rw [hx] at e a
      rcases hy : visit (deref h q) with y | p' <;> rw [hy] at a <;> rcases x with x | p <;>
        simp only at a e
      · rw [bind_error hx, a]; rfl
      · obtain ⟨a1, k, wk⟩ := a
        obtain ⟨o1, c1⟩ := p
        obtain ⟨o2, c2⟩ := p'
        simp only at a1 k wk
        rw [bind_ok hx, ok_bind]
        simp only
        obtain ⟨s', hm⟩ := s.step e k wk
        have r := ih s'
        rw [hm] at r
        rcases hz : solveLoopH n (c1.reverse ++ st) h1 with ⟨z, h2⟩
        rw [hz] at r
        simp only at r
        rcases z with z | z
        · rw [bind_error hz, ← r]; rfl
        · rw [bind_ok hz, ← r, ok_bind, pure_run, a1]

theorem placeH_run (h : Heap) (Q : Question) :
    ∃ q h', placeH Q h = (.ok q, h') ∧ Ext [] h h' ∧ Own h' q ∧ deref h' q = Q := by
  refine ⟨⟨h.nm, h.nv, h.nv + 1, h.nv + 2, h.nv + 3, Q.quota, Q.ans.len⟩,
    ((((h.pushM Q.A).pushV Q.b).pushV Q.bounds).pushV Q.ans.v).pushV Q.ans.loc, ?_, ?_, ?_, ?_⟩
  · unfold placeH
    simp only [newM_bind, newV_bind, pure_run, Heap.nv_pushV, Heap.nv_pushM]
  · exact ((((Ext.refl [] h).pushM _).pushV _).pushV _ |>.pushV _).pushV _
  · refine ⟨by simp, ?_, ?_⟩
    · intro a ha
      simp [QRef.refs] at ha ⊢
      omega
    · simp [QRef.refs]
  · unfold deref
    simp only
    have v4 : (((((h.pushM Q.A).pushV Q.b).pushV Q.bounds).pushV Q.ans.v).pushV Q.ans.loc).vec
        (h.nv + 3) = Q.ans.loc := Heap.vec_pushV_last (by simp)
    have v3 : (((((h.pushM Q.A).pushV Q.b).pushV Q.bounds).pushV Q.ans.v).pushV Q.ans.loc).vec
        (h.nv + 2) = Q.ans.v := by
      rw [Heap.vec_pushV_lt (by simp), Heap.vec_pushV_last (by simp)]
    have v2 : (((((h.pushM Q.A).pushV Q.b).pushV Q.bounds).pushV Q.ans.v).pushV Q.ans.loc).vec
        (h.nv + 1) = Q.bounds := by
      rw [Heap.vec_pushV_lt (by simp), Heap.vec_pushV_lt (by simp), Heap.vec_pushV_last (by simp)]
    have v1 : (((((h.pushM Q.A).pushV Q.b).pushV Q.bounds).pushV Q.ans.v).pushV Q.ans.loc).vec
        h.nv = Q.b := by
      rw [Heap.vec_pushV_lt (by simp only [Heap.nv_pushV, Heap.nv_pushM]; omega),
        Heap.vec_pushV_lt (by simp only [Heap.nv_pushV, Heap.nv_pushM]; omega),
        Heap.vec_pushV_lt (by simp only [Heap.nv_pushV, Heap.nv_pushM]; omega),
        Heap.vec_pushV_last (by simp)]
    rw [v1, v2, v3, v4]
    simp only [Heap.mat_pushV, Heap.mat_pushM_new]

/-- The question built from a rectangular matrix is well formed. -/
theorem fromMatrix_wf {m : Mat} {Q : Question} (hr : ∀ r ∈ m, r.length = ncols m)
    (h : fromMatrix m = .ok Q) : WF Q := by
  unfold fromMatrix at h
  obtain ⟨p, _, h⟩ := bind_eq_ok.1 h
  obtain ⟨v, k, l, u⟩ := p
  simp only at h
  split at h
  · cases h
  split at h
  · cases h
  unfold Question.mk' at h
  obtain ⟨_, h1, h⟩ := bind_eq_ok.1 h
  obtain ⟨_, h2, h⟩ := bind_eq_ok.1 h
  obtain ⟨_, h3, h⟩ := bind_eq_ok.1 h
  obtain ⟨_, h4, h⟩ := bind_eq_ok.1 h
  obtain ⟨_, h5, h⟩ := bind_eq_ok.1 h
  have h1 := pyAssert_ok' h1
  have h2 := pyAssert_ok' h2
  have h3 := pyAssert_ok' h3
  have h4 := pyAssert_ok' h4
  have h5 := pyAssert_ok' h5
  rw [List.all_eq_true] at h3 h5
  simp only at h
  obtain ⟨a, ha, h⟩ := bind_eq_ok.1 h
  have := (Except.ok.inj h).symm
  subst this
  refine ⟨?_, (by simpa using h1 : _ = _).symm, (by simpa using h2 : _ = _).symm, ?_, ?_,
    by simpa using h4, ?_⟩
  · have hall : ∀ r ∈ m.map (fun r => r.drop (m.length + 1)) ++
        [List.replicate (ncols m - m.length - 1) (1 : Int)],
        r.length = ncols m - m.length - 1 := by
      intro r hr'
      rcases List.mem_append.1 hr' with h' | h'
      · obtain ⟨r', hr'', rfl⟩ := List.mem_map.1 h'
        rw [List.length_drop, hr r' hr'']; omega
      · rw [List.mem_singleton.1 h', List.length_replicate]
    intro r hr'
    rw [hall r hr', ncols_eq (by simp) hall]
  · intro x hx; simpa using h3 x hx
  · intro x hx; simpa using h5 x hx
  · have := ansMk_eq ha
    unfold Answer.default at ha
    rw [this] at ha ⊢
    exact ha

theorem solveQuestionH_run {n : Nat} {Q : Question} (w : WF Q) (h : Heap) :
    (solveQuestionH n Q h).1 = solveLoop n [Q] := by
  obtain ⟨q, h1, e1, _, o, d⟩ := placeH_run h Q
  unfold solveQuestionH
  rw [bind_ok e1, solveLoopH_run ⟨by simpa using o, by simpa [d] using w, by simp⟩]
  simp [d]

theorem Ext.mono {W W' : List Nat} {h h' : Heap} (e : Ext W h h') (hs : ∀ a ∈ W, a ∈ W') :
    Ext W' h h' := ⟨e.nv, e.nm, fun a ha hn => e.vec a ha (fun h1 => hn (hs a h1)), e.mat⟩

/-- The loop writes only the arrays of the questions on its stack and arrays it allocated. -/
theorem solveLoopH_ext : ∀ {n : Nat} {st : List QRef} {h : Heap}, Stack h st →
    Ext (st.flatMap QRef.refs) h (solveLoopH n st h).2 := by
  intro n
  induction n with
  | zero =>
    intro st h s
    cases st <;> exact Ext.refl _ _
  | succ n ih =>
    intro st h s
    cases st with
    | nil => exact Ext.refl _ _
    | cons q st =>
      rw [solveLoopH]
      obtain ⟨e, a⟩ := visitH_run (s.own q (by simp)) (s.wf q (by simp))
      rcases hx : visitH q h with ⟨x, h1⟩
      rw [hx] at e a
      have e' : Ext ((q :: st).flatMap QRef.refs) h h1 :=
        e.mono (fun a ha => by simp only [List.flatMap_cons, List.mem_append]; exact Or.inl ha)
      rcases hy : visit (deref h q) with y | p' <;> rw [hy] at a <;> rcases x with x | p <;>
        simp only at a e
      · rw [bind_error hx]; exact e'
      · obtain ⟨a1, k, wk⟩ := a
        obtain ⟨o1, c1⟩ := p
        obtain ⟨o2, c2⟩ := p'
        simp only at a1 k wk
        rw [bind_ok hx]
        simp only
        obtain ⟨s', hm⟩ := s.step e k wk
        have r := ih s'
        have e2 : Ext ((q :: st).flatMap QRef.refs) h (solveLoopH n (c1.reverse ++ st) h1).2 := by
          refine e'.trans r ?_
          intro a ha
          obtain ⟨c, hc, hac⟩ := List.mem_flatMap.1 ha
          rcases List.mem_append.1 hc with h' | h'
          · exact Or.inr (k.new c (List.mem_reverse.1 h') a hac)
          · exact Or.inl (List.mem_flatMap.2 ⟨c, by simp [h'], hac⟩)
        rcases hz : solveLoopH n (c1.reverse ++ st) h1 with ⟨z, h2⟩
        rw [hz] at e2
        rcases z with z | z
        · rw [bind_error hz]; exact e2
        · rw [bind_ok hz]; exact e2

theorem solveQuestionH_ext {n : Nat} {Q : Question} (w : WF Q) (h : Heap) :
    Ext [] h (solveQuestionH n Q h).2 := by
  unfold solveQuestionH
  obtain ⟨q, h1, e1, e, o, d⟩ := placeH_run h Q
  have hq : ∀ a ∈ q.refs, h.nv ≤ a := by
    have : q = ⟨h.nm, h.nv, h.nv + 1, h.nv + 2, h.nv + 3, Q.quota, Q.ans.len⟩ := by
      have h2 := congrArg Prod.fst e1
      unfold placeH at h2
      simp only [newM_bind, newV_bind, pure_run, Heap.nv_pushV, Heap.nv_pushM] at h2
      exact (Except.ok.inj h2).symm
    rw [this]
    intro a ha
    simp [QRef.refs] at ha
    omega
  show Ext [] h ((placeH Q >>= fun q => solveLoopH n [q]) h).2
  rw [bind_ok e1]
  refine e.trans (solveLoopH_ext (st := [q]) ⟨by simpa using o, by simpa [d] using w, by simp⟩) ?_
  intro a ha
  right
  simp only [List.flatMap_cons, List.flatMap_nil, List.append_nil] at ha
  exact hq a ha

end Mem

end TDS
