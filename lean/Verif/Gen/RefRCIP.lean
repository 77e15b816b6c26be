import Verif.Gen.Inc
import Verif.Gen.RCIP

/-! # rCIP in any arithmetic: it raises only what the libraries raise -/

namespace Verif.Gen
open Py

variable {F : Type} {d : ℕ}

/-! ## Streams that may raise -/

/-- As `Refines`, with exceptions `E` allowed in the update. -/
structure RefinesE (d : ℕ) (M : Module F) (R : Samples F → Core F → Prop) (V : Samples F → F → Prop) (E : Samples F → PyErr → Prop) :
    Prop where
  concrete : M.abstract = false
  step : ∀ (S : Samples F) (s : Core F) (x : List F) (c : ℤ), S.Dim d → x.length = d → Start M.init R S s →
    (∃ s', M.incBody x ((order S).idxOf c) s = .ok () s' ∧ R (S ++ [(x, c)]) s') ∨
      ∃ e s', M.incBody x ((order S).idxOf c) s = .err e s' ∧ E (S ++ [(x, c)]) e
  eval : ∀ (S : Samples F) (s : Core F), S ≠ [] → S.Dim d → R S s →
    ∃ s', M.evaluate s = .ok () s' ∧ V S s'.criterion ∧ R S s'

theorem Refines.toE {M : Module F} {R : Samples F → Core F → Prop} {V : Samples F → F → Prop} (h : Refines d M R V)
    (E : Samples F → PyErr → Prop) : RefinesE d M R V E :=
  ⟨h.concrete, fun S s x c h1 h2 h3 => Or.inl (h.step S s x c h1 h2 h3), h.eval⟩

theorem RefinesE.call {M : Module F} {R : Samples F → Core F → Prop} {V : Samples F → F → Prop} {E : Samples F → PyErr → Prop}
    (h : RefinesE d M R V E) {S : Samples F} {o : Obj F} (hI : Inv M R S o) {x : List F} (c : ℤ) (hS : S.Dim d)
    (hx : x.length = d) :
    (∃ r o', getCvi M (.d1 x) (.int c) o = .ok r o' ∧ V (S ++ [(x, c)]) r ∧ Inv M R (S ++ [(x, c)]) o') ∨
      ∃ e o', getCvi M (.d1 x) (.int c) o = .err e o' ∧ E (S ++ [(x, c)]) e := by
  have hmap : o.labelMap = mapOf (order S) := by
    rcases hI with ⟨rfl, rfl⟩ | ⟨_, h, _⟩
    · rfl
    · exact h
  have hstart : Start M.init R S o.core := by
    rcases hI with ⟨rfl, rfl⟩ | ⟨h1, _, h2⟩
    · exact Or.inl ⟨rfl, rfl⟩
    · exact Or.inr ⟨h1, h2⟩
  rcases h.step S o.core x c hS hx hstart with ⟨s1, h1, hR1⟩ | ⟨e, s1, h1, hE⟩
  · left
    obtain ⟨s2, h2, hV, hR2⟩ := h.eval _ s1 (by simp) (hS.append hx) hR1
    refine ⟨s2.criterion, ⟨mapOf (order (S ++ [(x, c)])), s2⟩, ?_, hV, Or.inr ⟨by simp, rfl, hR2⟩⟩
    have e : M.update (.d1 x) (.int c) o = .ok () ⟨mapOf (order (S ++ [(x, c)])), s1⟩ := by
      simp [Module.update, Module.paramInc, h.concrete, hmap, getInternalLabel_mapOf, onCore, h1, Res.mapState, order_append]
    simp [getCvi, e, onCore, h2, Res.mapState]
  · right
    refine ⟨e, ⟨mapOf (order (S ++ [(x, c)])), s1⟩, ?_, hE⟩
    have e : M.update (.d1 x) (.int c) o = .err e ⟨mapOf (order (S ++ [(x, c)])), s1⟩ := by
      simp [Module.update, Module.paramInc, h.concrete, hmap, getInternalLabel_mapOf, onCore, h1, Res.mapState, order_append]
    simp [getCvi, e]

theorem RefinesE.feed {M : Module F} {R : Samples F → Core F → Prop} {V : Samples F → F → Prop} {E : Samples F → PyErr → Prop}
    (h : RefinesE d M R V E) (T S : Samples F) (o : Obj F) (hI : Inv M R S o) (hS : S.Dim d) (hT : T.Dim d) :
    (∃ vs o', Verif.feed M T o = .ok vs o' ∧ List.Forall₂ V (T.inits.tail.map (S ++ ·)) vs ∧ Inv M R (S ++ T) o') ∨
      ∃ e o', Verif.feed M T o = .err e o' ∧ ∃ P, P <+: S ++ T ∧ E P e := by
  induction T generalizing S o with
  | nil => exact Or.inl ⟨[], o, rfl, by simp, by simpa using hI⟩
  | cons p T ih =>
    obtain ⟨x, c⟩ := p
    have hx : x.length = d := hT (x, c) (by simp)
    rcases h.call hI c hS hx with ⟨r, o1, h1, hV, hI1⟩ | ⟨e, o1, h1, hE⟩
    · rcases ih _ o1 hI1 (hS.append hx) fun p hp => hT p (by simp [hp]) with ⟨vs, o2, h2, hvs, hI2⟩ | ⟨e, o2, h2, P, hP, hE⟩
      · left
        refine ⟨r :: vs, o2, ?_, ?_, by simpa using hI2⟩
        · simp [Verif.feed, h1, h2]
        · rw [inits_tail_cons]
          simp only [List.map_cons, List.map_map]
          refine .cons hV ?_
          have e : ((S ++ ·) ∘ ((x, c) :: ·) : Samples F → Samples F) = fun P => (S ++ [(x, c)]) ++ P := by
            funext P; simp
          rw [e]
          exact hvs
      · right
        exact ⟨e, o2, by simp [Verif.feed, h1, h2], P, by simpa using hP, hE⟩
    · right
      exact ⟨e, o1, by simp [Verif.feed, h1], _, by simp, hE⟩

theorem RefinesE.run {M : Module F} {R : Samples F → Core F → Prop} {V : Samples F → F → Prop} {E : Samples F → PyErr → Prop}
    (h : RefinesE d M R V E) {S : Samples F} (hS : S.Dim d) :
    (∃ vs o', Verif.feed M S M.fresh = .ok vs o' ∧ List.Forall₂ V S.inits.tail vs ∧ Inv M R S o') ∨
      ∃ e o', Verif.feed M S M.fresh = .err e o' ∧ ∃ P, P <+: S ∧ E P e := by
  simpa using h.feed S [] M.fresh (Or.inl ⟨rfl, rfl⟩) (fun _ h => absurd h (by simp)) hS

theorem lift_err {σ α β : Type} {x : Except PyErr α} {e : PyErr} {k : α → Py σ β} {s : σ} (h : x = .error e) :
    (lift x >>= k) s = .err e s := by subst h; rfl

/-- A loop that may raise. -/
theorem mapE_cases {α β : Type} (f : α → Except PyErr β) (l : List α) :
    (∀ a ∈ l, ∃ r, f a = .ok r) ∨ ∃ a ∈ l, ∃ e, f a = .error e ∧ mapE f l = .error e := by
  induction l with
  | nil => left; simp
  | cons a l ih =>
    cases h : f a with
    | error e => exact Or.inr ⟨a, by simp, e, h, by simp [mapE, h, Except.bind, bind]⟩
    | ok r =>
      rcases ih with ih | ⟨b, hb, e, he, hm⟩
      · left
        intro b hb
        rcases List.mem_cons.mp hb with rfl | hb
        · exact ⟨r, h⟩
        · exact ih b hb
      · exact Or.inr ⟨b, by simp [hb], e, he, by simp [mapE, h, hm, Except.bind, bind]⟩

/-! ## Square matrices -/

/-- A `d × d` array -/
def Sq (d : ℕ) (A : Arr2 F) : Prop := A.cols = d ∧ A.rows.length = d ∧ ∀ r ∈ A.rows, r.length = d

theorem zip2_sq {f : F → F → F} {A B : Arr2 F} (hA : Sq d A) (hB : Sq d B) : Sq d (zip2 f A B) := by
  refine ⟨hA.1, by simp [zip2, hA.2.1, hB.2.1], ?_⟩
  intro r hr
  obtain ⟨i, hi, rfl⟩ := List.getElem_of_mem hr
  simp only [zip2, List.length_zipWith] at hi ⊢
  simp only [List.getElem_zipWith, List.length_zipWith]
  rw [hA.2.2 _ (List.getElem_mem _), hB.2.2 _ (List.getElem_mem _), Nat.min_self]

variable [Arith F]

omit [Arith F] in
theorem bin_sq [Zero F] {f : F → F → F} {A B : Arr2 F} (hA : Sq d A) (hB : Sq d B) : Arr2.bin f A B = .ok (zip2 f A B) := by
  have hb : ∀ {C : Arr2 F}, Sq d C → C.broadcastTo d d = .ok C := by
    intro C h
    obtain ⟨h1, h2, _⟩ := h
    cases C
    simp only at h1 h2
    subst h1
    simp [Arr2.broadcastTo, h2]
  have e1 : (if A.rows.length = 1 then B.rows.length else A.rows.length) = d := by
    rw [hA.2.1, hB.2.1]; exact ite_self _
  have e2 : (if A.cols = 1 then B.cols else A.cols) = d := by
    rw [hA.1, hB.1]; exact ite_self _
  unfold Arr2.bin
  simp only [e1, e2, hb hA, hb hB, except_bind_ok, except_pure]
  rw [zip2, hA.1]

theorem ridge_sq : Sq d (ridge d : Arr2 F) := by
  refine ⟨rfl, by simp [ridge], ?_⟩
  intro r hr
  simp only [ridge, List.mem_map] at hr
  obtain ⟨i, _, rfl⟩ := hr
  simp

theorem smul_sq {q : F} {A : Arr2 F} (hA : Sq d A) : Sq d (Arr2.smul q A) := by
  refine ⟨hA.1, by simp [Arr2.smul, hA.2.1], ?_⟩
  intro r hr
  simp only [Arr2.smul, List.mem_map] at hr
  obtain ⟨r', hr', rfl⟩ := hr
  simp [Vec.smul, hA.2.2 r' hr']

theorem outer_sq {x : List F} (hx : x.length = d) : Sq d (Arr2.outer x x) := by
  refine ⟨hx, by simp [Arr2.outer, hx], ?_⟩
  intro r hr
  simp only [Arr2.outer, List.mem_map] at hr
  obtain ⟨r', _, rfl⟩ := hr
  simp [hx]

/-! ## The statistics -/

theorem Gauss.more_eq (t : Gauss F) (x : List F) (h : Sq d t.sigma) (hv : t.v.length = d) (hx : x.length = d) :
    (Gauss.more d t x).sigma = zip2 (· + ·) (zip2 (· + ·)
      (Arr2.smul (Arith.intDiv ((t.n : ℤ) - 1) t.n) (zip2 (· - ·) t.sigma (ridge d)))
      (Arr2.smul (Arith.invNat (t.n + 1)) (Arr2.outer (List.zipWith (· - ·) x t.v) (List.zipWith (· - ·) x t.v))))
      (ridge d) := by
  have e1 : (zip2 (· - ·) t.sigma (ridge d)).cols = d := h.1
  simp only [Gauss.more, Arr2.smul, e1, Arr2.outer, zip_length hx hv]
  rfl

theorem Gauss.more_sq {t : Gauss F} {x : List F} (h : Sq d t.sigma) (hv : t.v.length = d) (hx : x.length = d) :
    Sq d (Gauss.more d t x).sigma := by
  rw [Gauss.more_eq t x h hv hx]
  exact zip2_sq (zip2_sq (smul_sq (zip2_sq h ridge_sq)) (smul_sq (outer_sq (zip_length hx hv)))) ridge_sq

section
variable (S : Samples F) (x : List F) {a b c : ℤ}

theorem Gauss.of_append {l : List (List F)} (h : l ≠ []) : Gauss.of d (l ++ [x]) = Gauss.more d (Gauss.of d l) x := by
  cases l with
  | nil => exact absurd rfl h
  | cons y l => simp [Gauss.of]

theorem gauss_new (h : c ∉ order S) : gauss d (S ++ [(x, c)]) c = Gauss.one d x := by
  rw [gauss, own_append_self, (own_eq_nil S).mpr h]; rfl

theorem gauss_old (h : c ∈ order S) : gauss d (S ++ [(x, c)]) c = Gauss.more d (gauss d S c) x := by
  rw [gauss, own_append_self, Gauss.of_append]
  · rfl
  · intro e; exact (own_eq_nil S).mp e h

theorem gauss_ne (h : a ≠ c) : gauss d (S ++ [(x, c)]) a = gauss d S a := by rw [gauss, own_append_ne S x h]; rfl

/-- The sizes and centroids are those of the other classes. -/
theorem Gauss.of_nv (l : List (List F)) : (Gauss.of d l).n = (Stat.of l).n ∧ (Gauss.of d l).v = (Stat.of l).v := by
  induction l using List.reverseRecOn with
  | nil => exact ⟨rfl, rfl⟩
  | append_singleton l x ih =>
    by_cases e : l = []
    · subst e; exact ⟨rfl, rfl⟩
    · rw [Stat.of_append _ e, Gauss.of_append _ e]
      simp [Stat.more, Gauss.more, ih.1, ih.2]

theorem gauss_n : (gauss d S c).n = (stat S c).n := (Gauss.of_nv _).1
theorem gauss_v : (gauss d S c).v = (stat S c).v := (Gauss.of_nv _).2

theorem Gauss.of_sq {l : List (List F)} (h : l ≠ []) (hl : ∀ x ∈ l, x.length = d) : Sq d (Gauss.of d l).sigma := by
  induction l using List.reverseRecOn with
  | nil => exact absurd rfl h
  | append_singleton l x ih =>
    have hx := hl x (by simp)
    by_cases e : l = []
    · subst e; exact ridge_sq
    · rw [Gauss.of_append _ e]
      have hl' : ∀ y ∈ l, y.length = d := fun y hy => hl y (by simp [hy])
      refine Gauss.more_sq (ih e hl') ?_ hx
      rw [(Gauss.of_nv _).2]
      exact (Stat.of_length e hl').2.1

theorem gauss_sq (h : c ∈ order S) (hd : S.Dim d) : Sq d (gauss d S c).sigma :=
  Gauss.of_sq (fun e => (own_eq_nil S).mp e h) fun x hx => own_length S x hd hx
theorem gauss_v_length (h : c ∈ order S) (hd : S.Dim d) : (gauss d S c).v.length = d := by
  rw [gauss_v]; exact stat_v_length S h hd
theorem gauss_n_pos (h : c ∈ order S) (hd : S.Dim d) : 0 < (gauss d S c).n := by
  rw [gauss_n]; exact stat_n_pos S h hd

end

/-- The exceptions of the libraries: a power that overflows, `np.linalg.det` or `np.linalg.inv` of an array in `Q`; and the
division by the number of features. -/
def LibRaises (d : ℕ) (Q : Arr2 F → Prop) (e : PyErr) : Prop :=
  (d = 0 ∧ e = .zeroDivisionError) ∨ Arith.normConst (F := F) d = .error e ∨
    ∃ A : Arr2 F, Q A ∧ (Arith.det A = .error e ∨ Arith.inv A = .error e)

theorem LibRaises.mono {Q Q' : Arr2 F → Prop} {e : PyErr} (h : ∀ A, Q A → Q' A) : LibRaises d Q e → LibRaises d Q' e := by
  rintro (h' | h' | ⟨A, hA, h'⟩)
  · exact Or.inl h'
  · exact Or.inr (Or.inl h')
  · exact Or.inr (Or.inr ⟨A, h A hA, h'⟩)

/-- The sum of the covariances of two clusters of `S`. -/
def Summed (d : ℕ) (S : Samples F) (A : Arr2 F) : Prop :=
  ∃ a ∈ order S, ∃ b ∈ order S, a ≠ b ∧ A = zip2 (· + ·) (gauss d S a).sigma (gauss d S b).sigma

/-- `np.linalg.inv` keeps the shape. -/
def InvShape (F : Type) [Arith F] (d : ℕ) : Prop := ∀ A B : Arr2 F, Sq d A → Arith.inv A = .ok B → Sq d B

/-- The attributes when the branch on label novelty is reached. -/
structure MidG (d : ℕ) (S : Samples F) (s : Core F) : Prop where
  nv : NV d S s
  sigma : s.sigma = (order S).map fun c => (gauss d S c).sigma
  shape : s.sigmaShape = (d, d)
  delta : s.deltaTerm = ridge d
  isSetup : s.isSetup = true

/-- The attributes after the samples `S`. -/
structure RepG (d : ℕ) (S : Samples F) (s : Core F) : Prop extends MidG d S s where
  D : ∃ g, Overlaps d S g ∧ s.D = sqMat (order S) g
  nSamples : s.nSamples = S.length
  constant : Arith.normConst d = .ok s.constant

namespace RCIP

theorem cip_cases (hi : InvShape F d) {k : F} (hk : Arith.normConst d = .ok k) (s t : Gauss F) (hs : Sq d s.sigma)
    (ht : Sq d t.sigma) (hsv : s.v.length = d) (htv : t.v.length = d) :
    (∃ r, cip k s.v t.v s.sigma t.sigma = .ok r ∧ Overlap d s t r) ∨
      ∃ e, cip k s.v t.v s.sigma t.sigma = .error e ∧ LibRaises d (· = zip2 (· + ·) s.sigma t.sigma) e := by
  have hA := zip2_sq (f := (· + ·)) hs ht
  rw [cip, sub_eq hsv htv, except_bind_ok, Arr2.add, bin_sq hs ht, except_bind_ok]
  cases hD : Arith.det (zip2 (· + ·) s.sigma t.sigma) with
  | error e => exact Or.inr ⟨e, rfl, Or.inr (Or.inr ⟨_, rfl, Or.inl hD⟩)⟩
  | ok D =>
    rw [except_bind_ok]
    cases hB : Arith.inv (zip2 (· + ·) s.sigma t.sigma) with
    | error e => exact Or.inr ⟨e, rfl, Or.inr (Or.inr ⟨_, rfl, Or.inr hB⟩)⟩
    | ok B =>
      obtain ⟨b1, b2, _⟩ := hi _ _ hA hB
      have hz := zip_length (f := (· - ·)) hsv htv
      left
      refine ⟨_, ?_, k, D, B, hk, hD, hB, rfl⟩
      rw [except_bind_ok, quad, Arr2.vecMul, if_pos (by simp [Vec.smul, b2, hsv, htv]), except_bind_ok,
        inner_eq (d := d) (by simp [b1]) hz, b1]
      rfl

theorem dist_cases (hi : InvShape F d) {S : Samples F} {s : Core F} (hS : S.Dim d) (h : MidG d S s)
    (hk : Arith.normConst d = .ok s.constant) (t : Gauss F) (ht : Sq d t.sigma) (htv : t.v.length = d) {a : ℤ}
    (ha : a ∈ order S) :
    (∃ r, dist s t.v t.sigma ((order S).idxOf a) = .ok r ∧ Overlap d t (gauss d S a) r) ∨
      ∃ e, dist s t.v t.sigma ((order S).idxOf a) = .error e ∧
        LibRaises d (· = zip2 (· + ·) t.sigma (gauss d S a).sigma) e := by
  have hp : Verif.RCIP.page s ((order S).idxOf a) = .ok (gauss d S a).sigma := by
    rw [Verif.RCIP.page, h.sigma, getElem?_map_idxOf ha]
  rw [dist, h.nv.v, row_rep ha, except_bind_ok, hp, except_bind_ok, ← gauss_v (d := d)]
  exact cip_cases hi hk t _ ht (gauss_sq S ha hS) htv (gauss_v_length S ha hS)

theorem values_cases {ks : List ℤ} {c : ℤ} {f : ℕ → Except PyErr F} {P : ℤ → F → Prop} {E : PyErr → Prop}
    (h : ∀ a ∈ ks, a ≠ c → (∃ r, f (ks.idxOf a) = .ok r ∧ P a r) ∨ ∃ e, f (ks.idxOf a) = .error e ∧ E e) :
    (∃ g : ℤ → F, ∀ a ∈ ks, a ≠ c → f (ks.idxOf a) = .ok (g a) ∧ P a (g a)) ∨
      ∃ a ∈ ks, a ≠ c ∧ ∃ e, f (ks.idxOf a) = .error e ∧ E e := by
  by_cases hall : ∀ a ∈ ks, a ≠ c → ∃ r, f (ks.idxOf a) = .ok r ∧ P a r
  · left
    choose g hg using hall
    refine ⟨fun a => if ha : a ∈ ks ∧ a ≠ c then g a ha.1 ha.2 else 0, fun a ha hac => ?_⟩
    simpa [ha, hac] using hg a ha hac
  · right
    push Not at hall
    obtain ⟨a, ha, hac, hn⟩ := hall
    rcases h a ha hac with ⟨r, h1, h2⟩ | ⟨e, h1, h2⟩
    · exact absurd h2 (hn r h1)
    · exact ⟨a, ha, hac, e, h1, h2⟩

theorem columnOld_cases {ks : List ℤ} (hn : ks.Nodup) {c : ℤ} {f : ℕ → Except PyErr F} {P : ℤ → F → Prop}
    {E : PyErr → Prop}
    (h : ∀ a ∈ ks, a ≠ c → (∃ r, f (ks.idxOf a) = .ok r ∧ P a r) ∨ ∃ e, f (ks.idxOf a) = .error e ∧ E e) :
    (∃ g : ℤ → F, columnOld ks.length (ks.idxOf c) f = .ok (ks.map fun a => if a = c then 0 else g a) ∧
      ∀ a ∈ ks, a ≠ c → P a (g a)) ∨ ∃ e, columnOld ks.length (ks.idxOf c) f = .error e ∧ E e := by
  rcases values_cases h with ⟨g, hg⟩ | ⟨a, ha, hac, e, h1, _⟩
  · exact Or.inl ⟨g, columnOld_keys hn fun a ha hac => (hg a ha hac).1, fun a ha hac => (hg a ha hac).2⟩
  · right
    rcases mapE_cases (fun jx => if jx = ks.idxOf c then .ok 0 else f jx) (List.range ks.length) with hall | ⟨j, hj, e', h2, h3⟩
    · obtain ⟨r, hr⟩ := hall (ks.idxOf a) (by simpa using List.idxOf_lt_length_of_mem ha)
      rw [if_neg (fun h' => hac ((idxOf_inj ha).mp h')), h1] at hr
      exact absurd hr (by simp)
    · refine ⟨e', h3, ?_⟩
      have hj' : j < ks.length := by simpa using hj
      have ej : ks.idxOf ks[j] = j := hn.idxOf_getElem j hj'
      by_cases e0 : j = ks.idxOf c
      · rw [if_pos e0] at h2; exact absurd h2 (by simp)
      · rw [if_neg e0] at h2
        have hm : ks[j] ∈ ks := List.getElem_mem _
        rcases h ks[j] hm (fun h' => e0 (by rw [← h', ej])) with ⟨r, h4, _⟩ | ⟨e4, h4, h5⟩
        · rw [ej, h2] at h4; exact absurd h4 (by simp)
        · rw [ej, h2] at h4; cases h4; exact h5

theorem distNew_cases {ks : List ℤ} (hn : ks.Nodup) {c : ℤ} (hc : c ∉ ks) {D : Arr2 F} {g : ℤ → ℤ → F}
    {f : ℕ → Except PyErr F} {P : ℤ → F → Prop} {E : PyErr → Prop} (hD : ks ≠ [] → D = sqMat ks g)
    (h : ∀ a ∈ ks, a ≠ c → (∃ r, f (ks.idxOf a) = .ok r ∧ P a r) ∨ ∃ e, f (ks.idxOf a) = .error e ∧ E e) :
    (∃ r : ℤ → F, distNew ks.length ks.length D f = .ok (sqMat (ks ++ [c]) fun a b =>
        if a = c then (if b = c then 0 else r b) else if b = c then r a else g a b) ∧ ∀ a ∈ ks, P a (r a)) ∨
      ∃ e, distNew ks.length ks.length D f = .error e ∧ E e := by
  have ne : ∀ a ∈ ks, a ≠ c := fun a ha e => hc (e ▸ ha)
  rcases values_cases h with ⟨r, hr⟩ | ⟨a, ha, hac, e, h1, _⟩
  · refine Or.inl ⟨r, distNew_sqMat hn hc hD ?_ ?_ ?_ ?_, fun a ha => (hr a ha (ne a ha)).2⟩
    · intro a ha; simpa [ne a ha] using (hr a ha (ne a ha)).1
    · intro a ha; simp [ne a ha]
    · simp
    · intro a ha b hb; simp [ne a ha, ne b hb]
  · right
    have hne := List.ne_nil_of_mem ha
    rcases mapE_cases f (List.range ks.length) with hall | ⟨j, hj, e', h2, h3⟩
    · obtain ⟨r, hr⟩ := hall (ks.idxOf a) (by simpa using List.idxOf_lt_length_of_mem ha)
      rw [h1] at hr
      exact absurd hr (by simp)
    · have hj' : j < ks.length := by simpa using hj
      have ej : ks.idxOf ks[j] = j := hn.idxOf_getElem j hj'
      have hm : ks[j] ∈ ks := List.getElem_mem _
      refine ⟨e', ?_, ?_⟩
      · rw [distNew, if_neg (by simpa using hne), hD hne, enlarge_sqMat hc, except_bind_ok, columnNew, h3]
        rfl
      · rcases h ks[j] hm (ne _ hm) with ⟨r, h4, _⟩ | ⟨e4, h4, h5⟩
        · rw [ej, h2] at h4; exact absurd h4 (by simp)
        · rw [ej, h2] at h4; cases h4; exact h5

/-! ## The update -/

/-- The touched cluster is the newer one of each of its pairs. -/
theorem overlaps_append {S : Samples F} {x : List F} {c : ℤ} {g : ℤ → ℤ → F} {r : ℤ → F} (hg : Overlaps d S g)
    (hr : ∀ a ∈ order S, a ≠ c → Overlap d (gauss d (S ++ [(x, c)]) c) (gauss d S a) (r a)) :
    Overlaps d (S ++ [(x, c)]) fun a b =>
      if a = c then (if b = c then 0 else r b) else if b = c then r a else g a b := by
  have hm : ∀ a ∈ order (S ++ [(x, c)]), a ≠ c → a ∈ order S := by
    intro a ha hac
    by_cases hc : c ∈ order S
    · rwa [order_old S x hc] at ha
    · rw [order_new S x hc, List.mem_append] at ha
      rcases ha with ha | ha
      · exact ha
      · exact absurd (by simpa using ha) hac
  intro a ha
  by_cases e1 : a = c
  · subst e1
    refine ⟨by simp, fun b hb hab => ?_⟩
    have hb' : b ≠ a := Ne.symm hab
    rw [newer_append, if_pos rfl, if_pos rfl, gauss_ne S x hb']
    simp only [if_pos, if_neg hb']
    exact hr b (hm b hb hb') hb'
  · refine ⟨by simpa [e1] using (hg a (hm a ha e1)).1, fun b hb hab => ?_⟩
    rw [newer_append, if_neg (Ne.symm e1), gauss_ne S x e1]
    simp only [if_neg e1]
    by_cases e2 : b = c
    · subst e2
      rw [if_pos rfl, if_neg (by simp), if_pos rfl]
      exact hr a (hm a ha e1) e1
    · rw [if_neg (Ne.symm e2), if_neg e2, gauss_ne S x e2]
      exact (hg a (hm a ha e1)).2 b (hm b hb e2) hab

/-- The attributes of the clusters, with the table. -/
def withG (d : ℕ) (S : Samples F) (s : Core F) (D : Arr2 F) : Core F :=
  { withNV d S s with sigma := (order S).map fun c => (gauss d S c).sigma, D := D }

theorem sigmaNew_eq (t : Gauss F) (x : List F) (hn : 0 < t.n) (h : Sq d t.sigma) (hv : t.v.length = d)
    (hx : x.length = d) :
    sigmaNew t.n t.sigma (ridge d) (List.zipWith (· - ·) x t.v) = .ok (Gauss.more d t x).sigma := by
  have h1 := zip2_sq (f := (· - ·)) h (ridge_sq (F := F) (d := d))
  have h2 := outer_sq (zip_length (f := (· - ·)) hx hv)
  rw [Gauss.more_eq t x h hv hx, sigmaNew, pyDiv, if_neg (by exact_mod_cast hn.ne'), except_bind_ok, Arr2.sub,
    bin_sq h ridge_sq, except_bind_ok, Arr2.add, bin_sq (smul_sq h1) (smul_sq h2), except_bind_ok, Arr2.add,
    bin_sq (zip2_sq (smul_sq h1) (smul_sq h2)) ridge_sq]

theorem broadcast_sq {A : Arr2 F} (h : Sq d A) : A.broadcastTo d d = .ok A := by
  obtain ⟨h1, h2, _⟩ := h
  cases A
  simp only at h1 h2
  subst h1
  simp [Arr2.broadcastTo, h2]

theorem setSigma_eq {S : Samples F} {s : Core F} {x : List F} {c : ℤ} (hc : c ∈ order S)
    (h : s.sigma = (order S).map fun c => (gauss d S c).sigma) (hs : s.sigmaShape = (d, d))
    (hq : Sq d (gauss d (S ++ [(x, c)]) c).sigma) :
    Verif.RCIP.setSigma ((order S).idxOf c) (gauss d (S ++ [(x, c)]) c).sigma s =
      .ok () { s with sigma := (order (S ++ [(x, c)])).map fun a => (gauss d (S ++ [(x, c)]) a).sigma } := by
  rw [Verif.RCIP.setSigma]
  apply get_bind
  rw [if_pos (by rw [h]; simpa using List.idxOf_lt_length_of_mem hc), hs, broadcast_sq hq]
  refine lift_bind rfl ?_
  rw [modify_apply, ← hs, h, order_old S x hc,
    map_set (order_nodup S) _ (fun a => (gauss d (S ++ [(x, c)]) a).sigma) _ rfl fun a _ ha => by rw [gauss_ne S x ha]]

omit [Arith F] in
theorem dstackSigma_eq {s : Core F} {A : Arr2 F} (hs : s.sigmaShape = (d, d)) (hA : Sq d A) :
    Verif.RCIP.dstackSigma A s = .ok () { s with sigma := s.sigma ++ [A] } := by
  rw [Verif.RCIP.dstackSigma]
  apply get_bind
  rw [if_pos (by rw [hs, hA.1, hA.2.1]), modify_apply]

theorem branch (hi : InvShape F d) {S : Samples F} {s : Core F} {x : List F} {c : ℤ} (hS : S.Dim d) (hx : x.length = d)
    (h : MidG d S s) (hk : Arith.normConst d = .ok s.constant)
    (hD : ∃ g, Overlaps d S g ∧ (order S ≠ [] → s.D = sqMat (order S) g)) :
    (∃ g, Overlaps d (S ++ [(x, c)]) g ∧
      (if ((order S).idxOf c : ℤ) > (s.nClusters : ℤ) - 1 then incNew x ((order S).idxOf c)
        else incOld x ((order S).idxOf c)) s =
        .ok () (withG d (S ++ [(x, c)]) s (sqMat (order (S ++ [(x, c)])) g))) ∨
      ∃ e s', (if ((order S).idxOf c : ℤ) > (s.nClusters : ℤ) - 1 then incNew x ((order S).idxOf c)
        else incOld x ((order S).idxOf c)) s = .err e s' ∧ LibRaises d (Summed d (S ++ [(x, c)])) e := by
  obtain ⟨g, hg, hD⟩ := hD
  have nv := h.nv
  have hsum : ∀ a ∈ order S, a ≠ c → ∀ A, A = zip2 (· + ·) (gauss d (S ++ [(x, c)]) c).sigma (gauss d S a).sigma →
      Summed d (S ++ [(x, c)]) A := by
    rintro a ha hac A rfl
    refine ⟨c, (mem_order _).mpr ⟨x, by simp⟩, a, ?_, hac.symm, by rw [gauss_ne S x hac]⟩
    obtain ⟨y, hy⟩ := (mem_order S).mp ha
    exact (mem_order _).mpr ⟨y, by simp [hy]⟩
  by_cases hc : c ∈ order S
  · rw [if_neg (by rw [isNew_iff nv.k]; simpa using hc), incOld]
    have hc' : c ∈ order (S ++ [(x, c)]) := by rw [order_old S x hc]; exact hc
    have hv := stat_v_length _ hc' (hS.append hx)
    have hsg := gauss_sq _ hc' (hS.append hx)
    have e := stat_old S x hc
    have eg := gauss_old (d := d) S x hc
    have hp : Verif.RCIP.page s ((order S).idxOf c) = .ok (gauss d S c).sigma := by
      rw [Verif.RCIP.page, h.sigma, getElem?_map_idxOf hc]
    have hcol := columnOld_cases (order_nodup S) (c := c) (E := LibRaises d (Summed d (S ++ [(x, c)]))) fun a ha hac =>
      (dist_cases hi hS h hk (gauss d (S ++ [(x, c)]) c) hsg (gauss_v_length _ hc' (hS.append hx)) ha).imp_right
        fun ⟨e, h1, h2⟩ => ⟨e, h1, h2.mono (hsum a ha hac)⟩
    rw [gauss_v, ← nv.k] at hcol
    have pre : ∀ r, (lift (columnOld s.nClusters ((order S).idxOf c)
          (dist s (stat (S ++ [(x, c)]) c).v (gauss d (S ++ [(x, c)]) c).sigma)) >>= fun D =>
          setN ((order S).idxOf c) ((stat S c).n + 1) >>= fun _ => setV ((order S).idxOf c) (stat (S ++ [(x, c)]) c).v >>=
            fun _ => Verif.RCIP.setSigma ((order S).idxOf c) (gauss d (S ++ [(x, c)]) c).sigma >>= fun _ =>
              setD ((order S).idxOf c) D) s = r → incOld x ((order S).idxOf c) s = r := by
      intro r hr
      rw [incOld]
      refine get_bind (lift_bind (by rw [nv.n]; exact get_rep hc) (lift_bind (by rw [nv.v]; exact row_rep hc)
        (lift_bind (a := (stat (S ++ [(x, c)]) c).v) (by rw [runningMean_eq (stat_v_length S hc hS) hx, e]; rfl) ?_)))
      refine lift_bind (sub_eq hx (stat_v_length S hc hS)) (lift_bind hp ?_)
      refine lift_bind (a := (gauss d (S ++ [(x, c)]) c).sigma) ?_ hr
      rw [h.delta, ← gauss_n (d := d), ← gauss_v (d := d), eg]
      exact sigmaNew_eq _ x (gauss_n_pos S hc hS) (gauss_sq S hc hS) (gauss_v_length S hc hS) hx
    rcases hcol with ⟨r, hr, hP⟩ | ⟨er, her, hE⟩
    · left
      refine ⟨_, overlaps_append hg hP, pre _ (lift_bind hr ?_)⟩
      refine bind_ok_of (setN_rep (order_nodup S) hc nv.n (f' := fun a => (stat (S ++ [(x, c)]) a).n) (by rw [e]; rfl)
        fun a _ ha => by rw [stat_ne S x ha]) ?_
      refine bind_ok_of (setV_rep (order_nodup S) hc nv.v (f' := fun a => (stat (S ++ [(x, c)]) a).v) rfl hv
        fun a _ ha => by rw [stat_ne S x ha]) ?_
      refine bind_ok_of (setSigma_eq (x := x) hc h.sigma h.shape hsg) ?_
      refine (setD_rep (order_nodup S) hc (by exact hD (List.ne_nil_of_mem hc)) (r := fun a => if a = c then 0 else r a)
        (g' := fun a b => if a = c then (if b = c then 0 else r b) else if b = c then r a else g a b) ?_ ?_ ?_).trans ?_
      · intro a _; simp
      · intro a _; by_cases e : a = c <;> simp [e]
      · intro a _ b _ ha hb; simp [ha, hb]
      · simp [withG, withNV, ← nv.k, order_old S x hc]
    · right
      exact ⟨er, s, pre _ (lift_err her), hE⟩
  · have e := stat_new S x hc
    have eg := gauss_new (d := d) S x hc
    rw [if_pos (by rw [isNew_iff nv.k]; exact hc), incNew]
    have hcol := distNew_cases (order_nodup S) hc hD (E := LibRaises d (Summed d (S ++ [(x, c)]))) fun a ha hac =>
      (dist_cases hi hS h hk (gauss d (S ++ [(x, c)]) c) (by rw [eg]; exact ridge_sq) (by rw [eg]; exact hx) ha).imp_right
        fun ⟨e, h1, h2⟩ => ⟨e, h1, h2.mono (hsum a ha hac)⟩
    have e1 : (gauss d (S ++ [(x, c)]) c).v = x := by rw [eg]; rfl
    have e2 : (gauss d (S ++ [(x, c)]) c).sigma = s.deltaTerm := by rw [eg, h.delta]; rfl
    rw [e1, e2] at hcol
    rw [List.idxOf_eq_length hc]
    rcases hcol with ⟨r, hr, hP⟩ | ⟨er, her, hE⟩
    · left
      refine ⟨_, overlaps_append hg fun a ha _ => hP a ha, get_bind (lift_bind (by rw [nv.k]; exact hr) ?_)⟩
      refine modify_bind ?_
      refine bind_ok_of (appendN_rep hc nv.n (f' := fun a => (stat (S ++ [(x, c)]) a).n) (by rw [e]; rfl)
        fun a _ ha => by rw [stat_ne S x ha]) ?_
      refine bind_ok_of (vstackV_rep hc nv.v (f' := fun a => (stat (S ++ [(x, c)]) a).v) (by rw [e]; rfl) hx
        fun a _ ha => by rw [stat_ne S x ha]) ?_
      refine modify_bind ?_
      refine (dstackSigma_eq (d := d) (by exact h.shape) (by rw [h.delta]; exact ridge_sq)).trans ?_
      simp [withG, withNV, nv.k, order_new S x hc, h.sigma, e2]
      intro a ha
      rw [gauss_ne S x (c := c) (a := a) fun e => hc (e ▸ ha)]
    · right
      exact ⟨er, s, get_bind (lift_err (by rw [nv.k]; exact her)), hE⟩

theorem start {S : Samples F} {s : Core F} {x : List F} (hx : x.length = d) (h : Start (RCIPmod (F := F)).init (RepG d) S s) :
    s.nSamples = S.length ∧ ((∃ s', setupIfFirst setup x s = .ok () s' ∧ MidG d S s' ∧
      ∃ g, Overlaps d S g ∧ (order S ≠ [] → s'.D = sqMat (order S) g)) ∨
      ∃ e s', setupIfFirst setup x s = .err e s' ∧ d = 0 ∧ e = .zeroDivisionError) := by
  rcases h with ⟨rfl, rfl⟩ | ⟨hne, h⟩
  · subst hx
    refine ⟨rfl, ?_⟩
    by_cases h0 : x.length = 0
    · right
      obtain rfl : x = [] := by simpa using h0
      exact ⟨.zeroDivisionError, _, rfl, h0, rfl⟩
    · left
      cases x with
      | nil => exact absurd rfl h0
      | cons y x =>
        refine ⟨_, rfl, ⟨⟨?_, rfl, rfl, ?_⟩, rfl, rfl, rfl, rfl⟩, fun _ _ => 0, ?_, fun h => absurd rfl h⟩
        · rfl
        · rfl
        · intro a ha; exact absurd ha (by simp [order])
  · have hl : s.nSamples ≠ 0 := by rw [h.nSamples]; simpa using hne
    obtain ⟨g, hg, hD⟩ := h.D
    refine ⟨h.nSamples, Or.inl ⟨s, ?_, h.toMidG, g, hg, fun _ => hD⟩⟩
    rw [setupIfFirst]
    apply get_bind
    rw [if_neg hl, pure_apply]

theorem step (hi : InvShape F d) (S : Samples F) (s : Core F) (x : List F) (c : ℤ) (hS : S.Dim d) (hx : x.length = d)
    (h : Start (RCIPmod (F := F)).init (RepG d) S s) :
    (∃ s', incBody x ((order S).idxOf c) s = .ok () s' ∧ RepG d (S ++ [(x, c)]) s') ∨
      ∃ e s', incBody x ((order S).idxOf c) s = .err e s' ∧ LibRaises d (Summed d (S ++ [(x, c)])) e := by
  obtain ⟨hn, ⟨s1, h1, hm, hD⟩ | ⟨e, s1, h1, hE⟩⟩ := start hx h
  · cases hk : Arith.normConst (F := F) d with
    | error e =>
      right
      refine ⟨e, s1, get_bind (bind_ok_of h1 (get_bind (lift_err ?_))), Or.inr (Or.inl hk)⟩
      rw [hm.nv.dim, hk]
    | ok k =>
      have hm2 : MidG d S { s1 with constant := k } := ⟨⟨hm.nv.dim, hm.nv.k, hm.nv.n, hm.nv.v⟩, hm.sigma, hm.shape, hm.delta, hm.isSetup⟩
      have hl : Arith.normConst (F := F) s1.dim = .ok k := by rw [hm.nv.dim, hk]
      rcases branch hi (c := c) hS hx hm2 hk hD with ⟨g, hg, hb⟩ | ⟨e, s2, hb, hE⟩
      · left
        refine ⟨_, get_bind (bind_ok_of h1 (get_bind (lift_bind hl (modify_bind (get_bind (bind_ok_of hb rfl)))))), ?_⟩
        refine ⟨⟨⟨hm.nv.dim, rfl, rfl, rfl⟩, rfl, hm.shape, hm.delta, hm.isSetup⟩, ⟨g, hg, rfl⟩, ?_, hk⟩
        simp [hn]
      · right
        refine ⟨e, s2, get_bind (bind_ok_of h1 (get_bind (lift_bind hl (modify_bind (get_bind ?_))))), hE⟩
        rw [bind_apply, hb]; rfl
  · right
    refine ⟨e, s1, get_bind ?_, Or.inl hE⟩
    rw [bind_apply, h1]; rfl

theorem evaluate_eq {S : Samples F} {s : Core F} (h : RepG d S s) :
    ∃ s', evaluate s = .ok () s' ∧ Returns d .rCIP S s'.criterion ∧ RepG d S s' := by
  obtain ⟨g, hg, hD⟩ := h.D
  have hl : s.D.rows.length = (order S).length := by rw [hD]; simp [sqMat]
  rw [evaluate, bind_apply, get_apply, Res.bind_ok, hl]
  have hR : ∀ s' : Core F, s'.dim = s.dim → s'.nClusters = s.nClusters → s'.n = s.n → s'.v = s.v → s'.sigma = s.sigma →
      s'.sigmaShape = s.sigmaShape → s'.deltaTerm = s.deltaTerm → s'.isSetup = s.isSetup → s'.D = s.D →
      s'.nSamples = s.nSamples → s'.constant = s.constant → RepG d S s' := fun s' h1 h2 h3 h4 h5 h6 h7 h8 h9 h10 h11 =>
    ⟨⟨⟨h1 ▸ h.nv.dim, h2 ▸ h.nv.k, h3 ▸ h.nv.n, h4 ▸ h.nv.v⟩, h5 ▸ h.sigma, h6 ▸ h.shape, h7 ▸ h.delta, h8 ▸ h.isSetup⟩,
      ⟨g, hg, h9.trans hD⟩, h10 ▸ h.nSamples, h11 ▸ h.constant⟩
  by_cases hk : (order S).length > 1
  · rw [if_pos hk]
    refine ⟨_, lift_bind (a := (pairs (order S)).map fun p => g p.1 p.2) ?_ rfl, ⟨g, hg, ?_⟩,
      hR _ rfl rfl rfl rfl rfl rfl rfl rfl rfl rfl rfl⟩
    · rw [hD, triu_upper (upper_sqMat _ _), upperVals_eq]
    · rw [if_neg (by omega)]
  · rw [if_neg hk]
    refine ⟨_, rfl, ⟨g, hg, ?_⟩, hR _ rfl rfl rfl rfl rfl rfl rfl rfl rfl rfl rfl⟩
    rw [if_pos (by omega)]

theorem refines (hi : InvShape F d) :
    RefinesE d (RCIPmod (F := F)) (RepG d) (Returns d .rCIP) (fun S => LibRaises d (Summed d S)) where
  concrete := rfl
  step := step hi
  eval _ _ _ _ h := evaluate_eq h

end RCIP
end Verif.Gen
