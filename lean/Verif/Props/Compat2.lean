import Verif.Props.Compat1
import Verif.Compat.SIL
import Verif.Compat.Cluster

/-! # The older interface (`cvi.compat.v0`), second part: C45 - C51 -/

namespace Verif
open Spec V0 Py

variable {d : ℕ}

/-! ## C45 -/

/-- C45, partial: a stream in order is accepted exactly if every cluster has one sample; then every value returned is 0.
Full statement: every stream in order is accepted; see `C45_false`. -/
theorem C45_partial (t : ℕ) {S : Stream d} (hS : InOrder S) :
    ((∃ rs s, V0.feed V0.GD.update (encS S) (V0.GD.init t) = .ok rs s) ↔ (S.map Prod.snd).Nodup) ∧
      ∀ rs s, V0.feed V0.GD.update (encS S) (V0.GD.init t) = .ok rs s → ∀ r ∈ rs, r = 0 := by
  rcases GD.run (t := t) hS with ⟨hd, s, h, -⟩ | ⟨hd, s, h⟩
  · refine ⟨⟨fun _ => hd, fun _ => ⟨_, s, h⟩⟩, ?_⟩
    intro rs s' h' r hr
    rw [h] at h'
    cases h'
    exact (List.mem_replicate.mp hr).2
  · refine ⟨⟨?_, fun h' => absurd h' hd⟩, ?_⟩
    · rintro ⟨rs, s', h'⟩
      rw [h] at h'
      cases h'
    · intro rs s' h'
      rw [h] at h'
      cases h'

/-- A stream that meets the hypothesis, with one sample per cluster. -/
example : InOrder ([(![0], 0), (![7], 1)] : Stream 1) ∧ (([(![0], 0), (![7], 1)] : Stream 1).map Prod.snd).Nodup :=
  ⟨two_prefix_inOrder 7, by simp⟩

/-- C45 is false, for `iGD43` and `iGD53`: the second sample of any cluster raises AttributeError, and so every stream in order longer than
its number of clusters fails. -/
theorem C45_false (t : ℕ) {S : Stream d} (hS : InOrder S) (hd : ¬ (S.map Prod.snd).Nodup) :
    ∃ s, V0.feed V0.GD.update (encS S) (V0.GD.init t) = .err .attributeError s := by
  rcases GD.run (t := t) hS with ⟨h, -⟩ | ⟨-, h⟩
  · exact absurd h hd
  · exact h

example : InOrder demo ∧ ¬ (demo.map Prod.snd).Nodup := ⟨demo_inOrder, by simp [demo]⟩

/-- Whatever was done before, even with exceptions caught, `iGD43` and `iGD53` return 0 or raise. -/
theorem C45_zero_partial (t : ℕ) (l : List (Vec × ℤ)) (x : Vec) (c : ℤ) :
    (∃ s, V0.GD.update x c (afterAll V0.GD.update l (V0.GD.init t)) = .ok 0 s)
      ∨ ∃ e s, V0.GD.update x c (afterAll V0.GD.update l (V0.GD.init t)) = .err e s := by
  have h0 : ∀ (l : List (Vec × ℤ)) (s : V0.GD), s.output = 0 → (afterAll V0.GD.update l s).output = 0 := by
    intro l
    induction l with
    | nil => exact fun s h => h
    | cons p l ih => exact fun s h => ih _ ((GD.update_output.1).trans h)
  cases h : V0.GD.update x c (afterAll V0.GD.update l (V0.GD.init t)) with
  | err e s => exact .inr ⟨e, s, rfl⟩
  | ok r s => exact .inl ⟨s, by rw [(GD.update_output.2 r s h).trans (h0 l _ rfl)]⟩

/-! ## C46 -/

/-- C46, partial: a stream in order is accepted exactly if every cluster has one sample; then every value returned is 0.
Full statement: every stream in order is accepted; see `C46_false`. -/
theorem C46_partial {S : Stream d} (hS : InOrder S) :
    ((∃ rs s, V0.feed V0.DB.update (encS S) V0.DB.init = .ok rs s) ↔ (S.map Prod.snd).Nodup) ∧
      ∀ rs s, V0.feed V0.DB.update (encS S) V0.DB.init = .ok rs s → ∀ r ∈ rs, r = some 0 := by
  rcases DB.run hS with ⟨hd, s, h, -⟩ | ⟨hd, s, h⟩
  · refine ⟨⟨fun _ => hd, fun _ => ⟨_, s, h⟩⟩, ?_⟩
    intro rs s' h' r hr
    rw [h] at h'
    cases h'
    exact (List.mem_replicate.mp hr).2
  · refine ⟨⟨?_, fun h' => absurd h' hd⟩, ?_⟩
    · rintro ⟨rs, s', h'⟩
      rw [h] at h'
      cases h'
    · intro rs s' h'
      rw [h] at h'
      cases h'

/-- C46 is false: the second sample of any cluster raises IndexError. -/
theorem C46_false {S : Stream d} (hS : InOrder S) (hd : ¬ (S.map Prod.snd).Nodup) :
    ∃ s, V0.feed V0.DB.update (encS S) V0.DB.init = .err .indexError s := by
  rcases DB.run hS with ⟨h, -⟩ | ⟨-, h⟩
  · exact absurd h hd
  · exact h

example : InOrder demo ∧ ¬ (demo.map Prod.snd).Nodup := ⟨demo_inOrder, by simp [demo]⟩

/-- Whatever was done before, even with exceptions caught: `iDB` returns 0 for the next new cluster and raises for every other number, and
a rejected sample changes nothing but the count `N`. -/
theorem C46_any_partial (l : List (Vec × ℤ)) (x : Vec) (c : ℤ) :
    let s := afterAll V0.DB.update l V0.DB.init
    s.N = l.length ∧
      ((c = s.centers.length ∧ ∃ s', V0.DB.update x c s = .ok (some 0) s')
        ∨ (c ≠ s.centers.length ∧ ∃ e, V0.DB.update x c s = .err e { s with N := l.length + 1 })) := by
  intro s
  obtain ⟨h1, h2⟩ := DB.afterAll_ok l DB.init_ok
  have hN : s.N = l.length := h2.trans (by simp [V0.DB.init])
  obtain ⟨-, -, h3⟩ := DB.update_ok (x := x) (c := c) h1
  refine ⟨hN, ?_⟩
  rcases h3 with h | ⟨hc, e, s', h, rfl⟩
  · exact .inl h
  · exact .inr ⟨hc, e, by rw [← hN]; exact h⟩

/-! ## C47 -/

/-- The number of different cluster numbers. -/
def labelCount (l : List (ℕ × ℤ)) : ℕ := (l.map Prod.snd).toFinset.card

/-- Cluster numbers are introduced in the order 0, 1, 2, ... -/
def LabelsInOrder (l : List (ℕ × ℤ)) : Prop := ∀ P p Q, l = P ++ p :: Q → 0 ≤ p.2 ∧ p.2 ≤ (labelCount P : ℤ)

/-- The same labels on empty samples. -/
def bare (l : List (ℕ × ℤ)) : Stream 0 := l.map fun p => (fun i => i.elim0, p.2)

theorem numClusters_bare (l : List (ℕ × ℤ)) : numClusters (bare l) = labelCount l := by
  simp [bare, numClusters, labels, labelCount, Function.comp_def]

theorem bare_inOrder {l : List (ℕ × ℤ)} (h : LabelsInOrder l) : InOrder (bare l) := by
  intro P p Q hS
  obtain ⟨P', q', hl, hP, hq⟩ := List.map_eq_append_iff.mp hS
  obtain ⟨q, Q', rfl, rfl, rfl⟩ := List.map_eq_cons_iff.mp hq
  have := h P' q Q' hl
  rw [← hP]
  exact (numClusters_bare P').symm ▸ this

theorem SIL.afterAll_rep {l : List (ℕ × ℤ)} (hl : LabelsInOrder l) {heap : ℕ → Vec} (hh : AllEnc d heap) :
    SIL.Rep d (labelCount l) (SIL.afterAll l (V0.SIL.init heap)) ∧ AllEnc d (SIL.afterAll l (V0.SIL.init heap)).heap := by
  induction l using List.reverseRecOn with
  | nil => exact ⟨SIL.init_rep heap, hh⟩
  | append_singleton l p ih =>
    obtain ⟨b, c⟩ := p
    have hS : InOrder (bare l ++ [((fun i => i.elim0 : Pt 0), c)]) := by simpa [bare] using bare_inOrder hl
    obtain ⟨h1, h2⟩ := ih fun P q Q h => hl P q (Q ++ [(b, c)]) (by rw [h]; simp)
    obtain ⟨h3, h4⟩ := hS.last
    rw [numClusters_bare] at h4
    have := SIL.step h1 h2 b h3 h4
    rw [SIL.afterAll_append]
    refine ⟨?_, this.2.1⟩
    have hk : labelCount (l ++ [(b, c)]) = if c = labelCount l then labelCount l + 1 else labelCount l := by
      have e : labelCount (l ++ [(b, c)]) = numClusters (bare l ++ [((fun i => i.elim0 : Pt 0), c)]) := by
        rw [← numClusters_bare]
        simp [bare]
      rcases hS.cases with ⟨h3, h4⟩ | ⟨h3, h4⟩
      · rw [e, numClusters_old h3, numClusters_bare, if_neg]
        rw [numClusters_bare] at h4
        omega
      · rw [e, numClusters_new h3, numClusters_bare, if_pos]
        rw [numClusters_bare] at h4
        exact h4
    rw [hk]
    exact this.1

/-- C47, partial: with equally long arrays and cluster numbers in order, and with all exceptions caught, an update returns exactly if there are
then at least two clusters; otherwise it raises ValueError.  Full statement: it never raises and never writes to the caller's arrays; see
`C47_false`. -/
theorem C47_partial {l : List (ℕ × ℤ)} {b : ℕ} {c : ℤ} (hl : LabelsInOrder (l ++ [(b, c)])) {heap : ℕ → Vec}
    (hh : ∀ a, ∃ y : Pt d, heap a = enc y) :
    if 2 ≤ labelCount (l ++ [(b, c)]) then ∃ r s, V0.SIL.update b c (SIL.afterAll l (V0.SIL.init heap)) = .ok r s
    else ∃ s, V0.SIL.update b c (SIL.afterAll l (V0.SIL.init heap)) = .err .valueError s := by
  have hS : InOrder (bare l ++ [((fun i => i.elim0 : Pt 0), c)]) := by simpa [bare] using bare_inOrder hl
  obtain ⟨h1, h2⟩ := SIL.afterAll_rep (l := l) (fun P q Q h => hl P q (Q ++ [(b, c)]) (by rw [h]; simp)) hh
  obtain ⟨h3, h4⟩ := hS.last
  rw [numClusters_bare] at h4
  have h5 := (SIL.step h1 h2 b h3 h4).2.2
  have hk : labelCount (l ++ [(b, c)]) = if c = labelCount l then labelCount l + 1 else labelCount l := by
    have e : labelCount (l ++ [(b, c)]) = numClusters (bare l ++ [((fun i => i.elim0 : Pt 0), c)]) := by
      rw [← numClusters_bare]
      simp [bare]
    rcases hS.cases with ⟨h3, h4⟩ | ⟨h3, h4⟩
    · rw [e, numClusters_old h3, numClusters_bare, if_neg]
      rw [numClusters_bare] at h4
      omega
    · rw [e, numClusters_new h3, numClusters_bare, if_pos]
      rw [numClusters_bare] at h4
      exact h4
  rw [hk]
  exact h5

/-- Labels that meet the hypothesis, with two clusters. -/
example : LabelsInOrder ([(0, 0), (1, 0)] ++ [(2, 1)]) ∧ 2 ≤ labelCount ([(0, 0), (1, 0)] ++ [(2, 1)]) := by
  refine ⟨?_, by decide⟩
  intro P p Q h
  match P, h with
  | [], h => simp at h; simp [← h.1, labelCount]
  | [a], h => simp at h; simp [← h.2.1, labelCount]
  | [a, b], h => simp at h; simp [← h.2.2.1, ← h.1, ← h.2.1, labelCount]
  | a :: b :: e :: P, h => simp at h

/-- C47 is false: whatever the sample, the first update of a new object raises ValueError and doubles the caller's array. -/
theorem C47_false (heap : ℕ → Vec) (b : ℕ) (x : Pt d) (hx : heap b = enc x) :
    ∃ s, V0.SIL.update b 0 (V0.SIL.init heap) = .err .valueError s ∧ s.heap b = enc fun i => 2 * x i := by
  have hr := SIL.grow_rep (SIL.init_rep heap (d := d)) (b := b) (x := x) hx
  obtain ⟨s', h1, h2, -⟩ := SIL.rest_one hr x (a := b) rfl hx
  refine ⟨s', ?_, ?_⟩
  · rw [SIL.update_eq]
    simp only [bind_apply, get_apply, Res.bind_ok, ite_app, modify_apply]
    rw [if_pos (by rfl)]
    simp only [Res.bind_ok]
    have hx' : (V0.SIL.init heap).heap b = enc x := hx
    rw [hx']
    exact h1
  · rw [h2, Function.update_self]
    congr 1
    funext i
    ring

theorem getAt_mem {α : Type} {l : List α} {c : ℤ} {a : α} (h : getAt l c = .ok a) : a ∈ l := by
  unfold getAt at h
  split at h
  · cases h
  · split at h
    · cases h
      rename_i h
      exact List.mem_of_getElem? h
    · cases h

/-- The rest of C47: arrays that were never passed are never written to. -/
theorem C47_frame_partial (heap : ℕ → Vec) (l : List (ℕ × ℤ)) (a : ℕ) (ha : a ∉ l.map Prod.fst) :
    (SIL.afterAll l (V0.SIL.init heap)).heap a = heap a := by
  suffices h : (SIL.afterAll l (V0.SIL.init heap)).heap a = heap a ∧ ∀ g ∈ (SIL.afterAll l (V0.SIL.init heap)).g, g ∈ l.map Prod.fst from h.1
  induction l using List.reverseRecOn with
  | nil => exact ⟨rfl, by simp [SIL.afterAll, V0.SIL.init]⟩
  | append_singleton l p ih =>
    obtain ⟨b, c⟩ := p
    simp only [List.map_append, List.map_cons, List.map_nil, List.mem_append, List.mem_singleton, not_or] at ha
    obtain ⟨h1, h2⟩ := ih ha.1
    rw [SIL.afterAll_append]
    set s := SIL.afterAll l (V0.SIL.init heap) with hs
    have key : ∀ s1 : V0.SIL, s1.heap = s.heap → (∀ g ∈ s1.g, g ∈ (l ++ [(b, c)]).map Prod.fst) →
        (SIL.rest (s.heap b) c s1).state.heap a = heap a
          ∧ ∀ g ∈ (SIL.rest (s.heap b) c s1).state.g, g ∈ (l ++ [(b, c)]).map Prod.fst := by
      intro s1 e1 e2
      refine ⟨?_, by rw [SIL.rest_g]; exact e2⟩
      rw [SIL.rest_frame, e1, h1]
      intro hg
      have := e2 a (getAt_mem hg)
      simp only [List.map_append, List.map_cons, List.map_nil, List.mem_append, List.mem_singleton] at this
      exact this.elim ha.1 ha.2
    simp only [SIL.update_eq, bind_apply, get_apply, Res.bind_ok, ite_app, modify_apply, raise_apply, pure_apply]
    split_ifs
    · simp only [Res.bind_ok]
      refine key _ rfl ?_
      intro g hg
      rcases List.mem_append.mp hg with hg | hg
      · rw [List.map_append]; exact List.mem_append_left _ (h2 g hg)
      · simp [List.mem_singleton.mp hg]
    · simp only [Res.bind_err, Res.state]
      exact ⟨h1, fun g hg => by rw [List.map_append]; exact List.mem_append_left _ (h2 g hg)⟩
    · simp only [Res.bind_ok]
      exact key s rfl fun g hg => by rw [List.map_append]; exact List.mem_append_left _ (h2 g hg)

/-! ## C48 -/

/-- C48, partial: `iGD43`, `iGD53` and `iSIL` reject a cluster number that is too large and stay unchanged, in every state.
Full statement: so do `iXB`, `iCH`, `iDB`; see `C48_false`. -/
theorem C48_partial (x : Vec) (b : ℕ) (c : ℤ) :
    (∀ s : V0.GD, c > s.centers.length → c > s.sizes.length → V0.GD.update x c s = .err .valueError s) ∧
    (∀ s : V0.SIL, c > s.sizes.length → V0.SIL.update b c s = .err .valueError s) := by
  constructor
  · intro s h1 h2
    simp [V0.GD.update, h2, show ¬ c = (s.centers.length : ℤ) by omega]
  · intro s h2
    simp [SIL.update_eq, h2, show ¬ c = (s.sizes.length : ℤ) by omega]

/-- A state of each kind that meets the hypotheses, after an accepted sample. -/
example : (5 : ℤ) > (afterAll V0.GD.update [([.fin 1], 0)] (V0.GD.init 43)).centers.length
    ∧ (5 : ℤ) > (afterAll V0.GD.update [([.fin 1], 0)] (V0.GD.init 43)).sizes.length := by
  simp [afterAll, V0.GD.update, V0.GD.init, Res.state]

/-- C48 is false: `iXB`, `iDB` and `iCH` raise ValueError after counting the sample; `iCH` has also moved its data centre.  (`iCH` asks
`c_i == len(self.clusters)`, a list that stays empty, so only `c ≠ 0` matters.) -/
theorem C48_false (x : Vec) (c : ℤ) :
    (∀ s : V0.XB, c > s.sizes.length → V0.XB.update x c s = .err .valueError { s with N := s.N + 1 }) ∧
    (∀ s : V0.DB, c > s.centers.length → c > s.sizes.length → V0.DB.update x c s = .err .valueError { s with N := s.N + 1 }) ∧
    (0 < c → V0.CH.update x c V0.CH.init
      = .err .valueError { V0.CH.init with N := 1, dataCenter := some (x.map fun a => a / .fin 1) }) := by
  refine ⟨?_, ?_, ?_⟩
  · intro s h2
    simp [V0.XB.update, h2, show ¬ c = (s.sizes.length : ℤ) by omega]
  · intro s h1 h2
    simp [V0.DB.update, h2, show ¬ c = (s.centers.length : ℤ) by omega]
  · intro h
    simp [V0.CH.update, V0.CH.init, scaleAdd, vdiv, h, h.ne']

/-! ## C49 -/

/-- The names the factory accepts and what they stand for. -/
def supported : List (String × Cls) :=
  [("iDB", .iDB), ("iSIL", .iSIL), ("iGD43", .iGD43), ("iGD53", .iGD53), ("iCH", .iCH), ("iPS", .iPS), ("iXB", .iXB)]

/-- C49: the factory builds the class that belongs to a supported name, and raises ValueError for every other string. -/
theorem C49 (name : String) :
    (∀ c, iCVI name = .ok c ↔ (name, c) ∈ supported) ∧ (name ∉ supported.map Prod.fst → iCVI name = .error .valueError) := by
  have h : supported.map Prod.fst = ["iDB", "iSIL", "iGD43", "iGD53", "iCH", "iPS", "iXB"] := rfl
  rw [h]
  refine ⟨fun c => ?_, fun hn => ?_⟩
  · unfold iCVI
    split_ifs with h1 h2 h3 h4 h5 h6 h7
    all_goals first | subst name | skip
    all_goals simp [supported, *, eq_comm]
  · simp only [List.mem_cons, List.not_mem_nil, or_false, not_or] at hn
    obtain ⟨h1, h2, h3, h4, h5, h6, h7⟩ := hn
    simp [iCVI, h1, h2, h3, h4, h5, h6, h7]

example : ("iXB", Cls.iXB) ∈ supported ∧ "XB" ∉ supported.map Prod.fst := by decide

/-! ## C50 -/

/-- C50, partial: a radial cluster without bounding box, after any samples of equal length.  Full statement: with `box=True` too; see `C50_false`. -/
theorem C50_partial (l : List (Pt d × Option ℤ)) :
    ∃ s, Cluster.addAll (l.map fun p => (enc p.1, p.2)) (Cluster.init true false) = .ok () s
      ∧ s.len = l.length ∧ s.points = l.map (fun p => enc p.1) ∧ s.indices = l.filterMap Prod.snd
      ∧ (l ≠ [] → s.center = some (enc (meanOf (l.map Prod.fst)))) ∧
      ∀ x : Pt d,
        (l = [] → s.minDistance (enc x) = .ok .pinf ∧ s.avgDistance (enc x) = .error .zeroDivisionError) ∧
        (l ≠ [] →
          (∃ m, IsLeast {r | ∃ p ∈ l, r = euclid x p.1} m ∧ s.minDistance (enc x) = .ok (.fin m)) ∧
          s.avgDistance (enc x) = .ok (.fin ((l.map fun p => euclid x p.1).sum / l.length)) ∧
          s.centerDistance (enc x) = .ok (.fin (euclid (meanOf (l.map Prod.fst)) x))) := by
  refine ⟨_, Cluster.addAll_radial l, by simp [Cluster.ofPoints], by simp [Cluster.ofPoints], rfl, ?_, ?_⟩
  · intro h
    simp [Cluster.ofPoints, h]
  · intro x
    have hd : mapE (fun y => do let e ← Vec.sub (enc x) y; pure (norm 2 e)) (Cluster.ofPoints d (l.map Prod.fst) (l.filterMap Prod.snd)).points
        = .ok ((l.map fun p => euclid x p.1).map XR.fin) := by
      have := Cluster.distances x (l.map Prod.fst)
      rw [show (Cluster.ofPoints d (l.map Prod.fst) (l.filterMap Prod.snd)).points = (l.map Prod.fst).map enc from rfl, this]
      simp [Function.comp_def]
    refine ⟨?_, ?_⟩
    · rintro rfl
      simp [Cluster.minDistance, Cluster.avgDistance, Cluster.ofPoints, mapE]
    · intro h
      have hn : ((l.length : ℕ) : ℝ) ≠ 0 := by simpa using h
      refine ⟨?_, ?_, ?_⟩
      · rcases foldl_min_pinf (l.map fun p => euclid x p.1) with ⟨h', -⟩ | ⟨m, h1, h2⟩
        · simp at h'
          exact absurd h' h
        · refine ⟨m, ?_, ?_⟩
          · convert h1 using 2
            ext r
            simp [eq_comm]
          · rw [Cluster.minDistance, hd, except_bind_ok, h2, except_pure]
      · rw [Cluster.avgDistance, hd, except_bind_ok, if_neg (by simp [h]), XR.sum_fin]
        simp [Cluster.ofPoints, XR.fin_div_of_ne _ hn, Function.comp_def]
      · simp [Cluster.centerDistance, Cluster.ofPoints, h, sub_enc, norm_enc, V0.euclid, dist2]

theorem unit_bounds {n : ℕ} {x : Pt (n + 1)} (hx : ∀ i, 0 ≤ x i ∧ x i ≤ 1) :
    (∃ a, Vec.amax (enc x) = .ok (.fin a) ∧ (XR.lt (.fin a) (.fin 1) ∨ XR.fin a = .fin 1)) ∧
      ∃ a, Vec.amin (enc x) = .ok (.fin a) ∧ (XR.lt (.fin 0) (.fin a) ∨ XR.fin a = .fin 0) := by
  have h1 : ∀ r, XR.fin r ∈ enc x ↔ ∃ i, x i = r := fun r => by rw [enc, List.mem_ofFn']; simp
  have h0 : enc x ≠ [] := by simp [enc]
  have hf : ∀ y ∈ enc x, ∃ r, y = XR.fin r := fun y hy => by
    obtain ⟨i, rfl⟩ := (List.mem_ofFn' _ _).mp hy
    exact ⟨_, rfl⟩
  have hne : {r | XR.fin r ∈ enc x}.Nonempty := ⟨x 0, (h1 _).mpr ⟨0, rfl⟩⟩
  refine ⟨⟨_, amax_fin h0 hf, ?_⟩, _, amin_fin h0 hf, ?_⟩
  · have : sSup {r | XR.fin r ∈ enc x} ≤ 1 := csSup_le hne fun r hr => by
      obtain ⟨i, rfl⟩ := (h1 r).mp hr
      exact (hx i).2
    rcases this.lt_or_eq with h | h
    · exact .inl h
    · exact .inr (by rw [h])
  · have : 0 ≤ sInf {r | XR.fin r ∈ enc x} := le_csInf hne fun r hr => by
      obtain ⟨i, rfl⟩ := (h1 r).mp hr
      exact (hx i).1
    rcases this.lt_or_eq with h | h
    · exact .inl h
    · exact .inr (by rw [← h])

/-- C50 is false: with `box=True` the second sample always raises ValueError, and (if radial) the centre has moved by then. -/
theorem C50_false {n : ℕ} (radial : Bool) (x y : Pt (n + 1)) (hx : ∀ i, 0 ≤ x i ∧ x i ≤ 1) (hy : ∀ i, 0 ≤ y i ∧ y i ≤ 1) :
    ∃ s s', Cluster.addAll [(enc x, none)] (Cluster.init radial true) = .ok () s
      ∧ Cluster.addPoint (enc y) none s = .err .valueError s' ∧ s'.len = 1 ∧ s'.points = [enc x]
      ∧ (radial = true → s.center = some (enc x) ∧ s'.center = some (enc fun i => (x i + y i) / 2)) := by
  obtain ⟨⟨a, ha, ha'⟩, b, hb, hb'⟩ := unit_bounds hx
  obtain ⟨⟨a2, ha2, ha2'⟩, b2, hb2, hb2'⟩ := unit_bounds hy
  have e1 : vdiv (enc x) (.fin 1) = enc x := by rw [vdiv_enc x one_ne_zero]; simp
  have e2 : ∀ z : Pt (n + 1), vdiv (enc z) (.fin 2) = enc fun i => z i / 2 := fun z => vdiv_enc z two_ne_zero
  let cc := enc x ++ (enc x).map fun y => .fin 1 - y
  cases radial with
  | true =>
    have h1 : Cluster.addAll [(enc x, none)] (Cluster.init true true)
        = .ok () ⟨true, true, 1, some (enc x), some cc, [enc x], [], n + 1⟩ := by
      simp [Cluster.addAll, Cluster.addPoint, Cluster.init, scaleAdd, ha, if_pos ha', hb, if_pos hb', e1, cc]
    have h2 : Cluster.addPoint (enc y) none ⟨true, true, 1, some (enc x), some cc, [enc x], [], n + 1⟩
        = .err .valueError ⟨true, true, 1, some (enc fun i => (x i + y i) / 2), some cc, [enc x], [], n + 1⟩ := by
      norm_num [Cluster.addPoint, scaleAdd, smul_enc, add_enc, ha2, if_pos ha2', hb2, if_pos hb2', e2]
    exact ⟨_, _, h1, h2, rfl, rfl, fun _ => ⟨rfl, rfl⟩⟩
  | false =>
    have h1 : Cluster.addAll [(enc x, none)] (Cluster.init false true)
        = .ok () ⟨false, true, 1, none, some cc, [enc x], [], n + 1⟩ := by
      simp [Cluster.addAll, Cluster.addPoint, Cluster.init, ha, if_pos ha', hb, if_pos hb', cc]
    have h2 : Cluster.addPoint (enc y) none ⟨false, true, 1, none, some cc, [enc x], [], n + 1⟩
        = .err .valueError ⟨false, true, 1, none, some cc, [enc x], [], n + 1⟩ := by
      simp [Cluster.addPoint, ha2, if_pos ha2', hb2, if_pos hb2']
    exact ⟨_, _, h1, h2, rfl, rfl, fun h => by cases h⟩

/-- Samples that meet the hypotheses. -/
example : (∀ i, 0 ≤ (![1, 1 / 2] : Pt 2) i ∧ (![1, 1 / 2] : Pt 2) i ≤ 1) := by
  intro i; fin_cases i <;> norm_num

/-! ## C51 -/

/-- C51, partial: only the empty input is accepted.  Full statement: every input with labels in order gives the partition; see `C51_false`. -/
theorem C51_partial (l : List (Vec × ℤ)) : (∃ k, fromList l 0 = .ok () k) ↔ l = [] := by
  constructor
  · rintro ⟨k, h⟩
    cases l with
    | nil => rfl
    | cons p l =>
      exfalso
      have key : ∀ n : ℕ, ((match pyIdx n p.2 with
          | none => raise .indexError
          | some _ => do
            let _ : Unit ← raise .attributeError
            fromList l) : Py ℕ Unit) n ≠ .ok () k := by
        intro n h
        cases hp : pyIdx n p.2 with
        | none => rw [hp] at h; cases h
        | some i => rw [hp] at h; cases h
      simp only [fromList, bind_apply, get_apply, Res.bind_ok, ite_app, modify_apply, pure_apply] at h
      split_ifs at h
      all_goals
        simp only [Res.bind_ok] at h
        exact key _ h
  · rintro rfl
    exact ⟨0, rfl⟩

/-- C51 is false: the first point of every non-empty input with labels in order raises AttributeError, because the class `Cluster` and not an
object of it has been put into the list. -/
theorem C51_false (x : Vec) (l : List (Vec × ℤ)) : fromList ((x, 0) :: l) 0 = .err .attributeError 1 := by
  simp [fromList, pyIdx]

end Verif
