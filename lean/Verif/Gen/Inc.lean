import Verif.Gen.Sim

/-!
# Incremental updates in any arithmetic: shared steps
-/

namespace Verif.Gen
open Py

variable {F : Type} [Arith F] {d : ℕ}

/-! ## Arrays of equal length -/

theorem bin_eq {f : F → F → F} {a b : List F} (ha : a.length = d) (hb : b.length = d) :
    Vec.bin f a b = .ok (List.zipWith f a b) := by simp [Vec.bin, ha, hb]

theorem sub_eq {a b : List F} (ha : a.length = d) (hb : b.length = d) :
    Vec.sub a b = .ok (List.zipWith (· - ·) a b) := bin_eq ha hb

theorem add_eq {a b : List F} (ha : a.length = d) (hb : b.length = d) :
    Vec.add a b = .ok (List.zipWith (· + ·) a b) := bin_eq ha hb

theorem inner_eq {a b : List F} (ha : a.length = d) (hb : b.length = d) : Vec.inner a b = .ok (Arith.dot a b) := by
  simp [Vec.inner, ha, hb]

theorem sqDist_eq {a b : List F} (ha : a.length = d) (hb : b.length = d) :
    Vec.sqDist a b = .ok (Arith.npSum ((List.zipWith (· - ·) a b).map Arith.sq)) := by
  rw [Vec.sqDist, sub_eq ha hb]; rfl

theorem sqDistPy_eq {a b : List F} (ha : a.length = d) (hb : b.length = d) :
    Vec.sqDistPy a b = .ok (Arith.pySum ((List.zipWith (· - ·) a b).map Arith.sq)) := by
  rw [Vec.sqDistPy, sub_eq ha hb]; rfl

omit [Arith F] in
theorem zip_length {f : F → F → F} {a b : List F} (ha : a.length = d) (hb : b.length = d) :
    (List.zipWith f a b).length = d := by simp [ha, hb]

theorem runningMean_eq {n : ℕ} {v x : List F} (hv : v.length = d) (hx : x.length = d) :
    runningMean n v x = .ok (blend n v x) := by
  rw [runningMean]
  exact add_eq (d := d) (by simp [Vec.smul, hv]) (by simp [Vec.smul, hx])

/-! ## Tables -/

/-- `_dim`, `_n_clusters`, `_n`, `_v`. -/
structure NV (d : ℕ) (S : Samples F) (s : Core F) : Prop where
  dim : s.dim = d
  k : s.nClusters = (order S).length
  n : s.n = ⟨false, (order S).map fun c => (stat S c).n⟩
  v : s.v = ⟨d, (order S).map fun c => (stat S c).v⟩

/-- `_CP`, `_G`. -/
structure CG (d : ℕ) (S : Samples F) (s : Core F) : Prop where
  cp : s.CP = some ⟨false, (order S).map fun c => (stat S c).cp⟩
  g : s.G = some ⟨d, (order S).map fun c => (stat S c).g⟩

/-- `_D`. -/
def Dist (I : Index) (S : Samples F) (s : Core F) : Prop := s.D = sqMat (order S) (table I S)

/-- The statistics of an existing cluster. -/
theorem oldStats_eq {S : Samples F} {s : Core F} {x : List F} {c : ℤ} (hS : S.Dim d) (hx : x.length = d)
    (hc : c ∈ order S) (nv : NV d S s) (cg : CG d S s) :
    oldStats x ((order S).idxOf c) s = .ok ⟨(stat (S ++ [(x, c)]) c).n, (stat (S ++ [(x, c)]) c).v,
      (stat (S ++ [(x, c)]) c).cp, (stat (S ++ [(x, c)]) c).g⟩ := by
  have hv := stat_v_length S hc hS
  have hg := stat_g_length S hc hS
  have hb : (blend ((stat S c).n + 1) (stat S c).v x).length = d := blend_length hv hx
  unfold oldStats
  rw [nv.n, get_rep hc, except_bind_ok]
  simp only
  rw [nv.v, row_rep hc, except_bind_ok, runningMean_eq hv hx, except_bind_ok, sub_eq hv hb, except_bind_ok, sub_eq hx hb,
    except_bind_ok, cg.cp, attr, except_bind_ok, get_rep hc, except_bind_ok, cg.g, attr, except_bind_ok, row_rep hc,
    except_bind_ok]
  have l1 := zip_length (f := (· - ·)) hv hb
  have l2 := zip_length (f := (· - ·)) hx hb
  rw [compactnessNew, inner_eq l2 l2, except_bind_ok, inner_eq l1 l1, except_bind_ok, inner_eq l1 hg, except_bind_ok,
    except_pure, except_bind_ok, gNew, add_eq hg l2, except_bind_ok,
    add_eq (d := d) (zip_length hg l2) (by simp [Vec.smul, hv, hb]), except_bind_ok, stat_old S x hc]
  rfl

/-- The object with `_n_clusters`, `_n`, `_v` of `S`. -/
def withNV (d : ℕ) (S : Samples F) (s : Core F) : Core F :=
  { s with
    nClusters := (order S).length
    n := ⟨false, (order S).map fun c => (stat S c).n⟩
    v := ⟨d, (order S).map fun c => (stat S c).v⟩ }

/-- The object with `_n_clusters`, `_n`, `_v`, `_CP`, `_G` of `S`. -/
def withTables (d : ℕ) (S : Samples F) (s : Core F) : Core F :=
  { withNV d S s with
    CP := some ⟨false, (order S).map fun c => (stat S c).cp⟩
    G := some ⟨d, (order S).map fun c => (stat S c).g⟩ }

theorem zeros_eq {x : List F} (hx : x.length = d) : Vec.zeros d = x.map fun _ => (0 : F) := by
  rw [List.map_const', hx]; rfl

theorem append_tables {β : Type} {S : Samples F} {s : Core F} {x : List F} {c : ℤ} (hx : x.length = d)
    (hc : c ∉ order S) (nv : NV d S s) (cg : CG d S s) (k : Unit → Py (Core F) β) :
    (incClusters >>= fun _ => appendN 1 >>= fun _ => appendCP 0 >>= fun _ => vstackV x >>= fun _ =>
      vstackG (Vec.zeros s.dim) >>= k) s = k () (withTables d (S ++ [(x, c)]) s) := by
  have e := stat_new S x hc
  refine modify_bind ?_
  refine bind_ok_of (appendN_rep hc nv.n (f' := fun a => (stat (S ++ [(x, c)]) a).n) (by rw [e]; rfl)
    fun a _ ha => by rw [stat_ne S x ha]) ?_
  refine bind_ok_of (appendCP_rep hc cg.cp (f' := fun a => (stat (S ++ [(x, c)]) a).cp) (by rw [e]; rfl)
    fun a _ ha => by rw [stat_ne S x ha]) ?_
  refine bind_ok_of (vstackV_rep hc nv.v (f' := fun a => (stat (S ++ [(x, c)]) a).v) (by rw [e]; rfl) hx
    fun a _ ha => by rw [stat_ne S x ha]) ?_
  refine bind_ok_of (vstackG_rep hc cg.g (f' := fun a => (stat (S ++ [(x, c)]) a).g)
    (by rw [e, nv.dim, zeros_eq hx]; rfl) (by simp [Vec.zeros, nv.dim]) fun a _ ha => by rw [stat_ne S x ha]) ?_
  simp [withTables, withNV, nv.k, order_new S x hc]

theorem set_tables {β : Type} {S : Samples F} {s : Core F} {x : List F} {c : ℤ} (hS : S.Dim d) (hx : x.length = d)
    (hc : c ∈ order S) (nv : NV d S s) (cg : CG d S s) (k : Unit → Py (Core F) β) :
    (setN ((order S).idxOf c) (stat (S ++ [(x, c)]) c).n >>= fun _ =>
      setV ((order S).idxOf c) (stat (S ++ [(x, c)]) c).v >>= fun _ =>
      setCP ((order S).idxOf c) (stat (S ++ [(x, c)]) c).cp >>= fun _ =>
      setG ((order S).idxOf c) (stat (S ++ [(x, c)]) c).g >>= k) s = k () (withTables d (S ++ [(x, c)]) s) := by
  have hc' : c ∈ order (S ++ [(x, c)]) := by rw [order_old S x hc]; exact hc
  have hS' := hS.append (c := c) hx
  refine bind_ok_of (setN_rep (order_nodup S) hc nv.n (f' := fun a => (stat (S ++ [(x, c)]) a).n) rfl
    fun a _ ha => by rw [stat_ne S x ha]) ?_
  refine bind_ok_of (setV_rep (order_nodup S) hc nv.v (f' := fun a => (stat (S ++ [(x, c)]) a).v) rfl
    (stat_v_length _ hc' hS') fun a _ ha => by rw [stat_ne S x ha]) ?_
  refine bind_ok_of (setCP_rep (order_nodup S) hc cg.cp (f' := fun a => (stat (S ++ [(x, c)]) a).cp) rfl
    fun a _ ha => by rw [stat_ne S x ha]) ?_
  refine bind_ok_of (setG_rep (order_nodup S) hc cg.g (f' := fun a => (stat (S ++ [(x, c)]) a).g) rfl
    (stat_g_length _ hc' hS') fun a _ ha => by rw [stat_ne S x ha]) ?_
  simp [withTables, withNV, ← nv.k, order_old S x hc]

theorem withTables_nv {S : Samples F} {s : Core F} (h : s.dim = d) : NV d S (withTables d S s) := ⟨h, rfl, rfl, rfl⟩
theorem withTables_cg {S : Samples F} {s : Core F} : CG d S (withTables d S s) := ⟨rfl, rfl⟩

/-! ## The table of distances -/

theorem distNew_eq {I : Index} {S : Samples F} {s : Core F} {x : List F} {c : ℤ} {f : ℕ → Except PyErr F}
    (hc : c ∉ order S) (hk : s.nClusters = (order S).length) (hD : order S ≠ [] → Dist I S s)
    (hf : ∀ a ∈ order S, f ((order S).idxOf a) = .ok (between I (stat (S ++ [(x, c)]) c) (stat S a))) :
    distNew s.nClusters ((order S).idxOf c) s.D f =
      .ok (sqMat (order (S ++ [(x, c)])) (table I (S ++ [(x, c)]))) := by
  rw [hk, List.idxOf_eq_length hc, order_new S x hc]
  have ne : ∀ a ∈ order S, a ≠ c := fun a ha e => hc (e ▸ ha)
  refine distNew_sqMat (order_nodup S) hc hD ?_ ?_ (table_self _) ?_
  · intro a ha; rw [hf a ha, table_append_self S x (ne a ha)]
  · intro a ha; rw [table_append_self S x (ne a ha), table_append_self' S x (ne a ha)]
  · intro a ha b hb; exact table_append_ne S x (ne a ha) (ne b hb)

theorem columnOld_eq {I : Index} {S : Samples F} {s : Core F} {x : List F} {c : ℤ} {f : ℕ → Except PyErr F}
    (hk : s.nClusters = (order S).length)
    (hf : ∀ a ∈ order S, a ≠ c → f ((order S).idxOf a) = .ok (between I (stat (S ++ [(x, c)]) c) (stat S a))) :
    columnOld s.nClusters ((order S).idxOf c) f = .ok ((order S).map fun a => table I (S ++ [(x, c)]) c a) := by
  rw [hk, columnOld_keys (order_nodup S) hf]
  congr 1
  apply List.map_congr_left
  intro a _
  by_cases e : a = c
  · subst e; simp [table_self]
  · simp [e, table_append_self S x e]

theorem setD_eq {I : Index} {S : Samples F} {s : Core F} {x : List F} {c : ℤ} (hc : c ∈ order S) (hD : Dist I S s) :
    setD ((order S).idxOf c) ((order S).map fun a => table I (S ++ [(x, c)]) c a) s =
      .ok () { s with D := sqMat (order (S ++ [(x, c)])) (table I (S ++ [(x, c)])) } := by
  rw [order_old S x hc]
  refine setD_rep (order_nodup S) hc hD (fun _ _ => rfl) ?_ ?_
  · intro a _
    by_cases e : a = c
    · subst e; rfl
    · rw [table_append_self S x e, table_append_self' S x e]
  · intro a _ b _ ha hb; exact table_append_ne S x ha hb

/-! ## Setup and the mean of all samples -/

/-- The classes with `_mu` and `_G`: the attributes after the samples `S`. -/
structure Common (d : ℕ) (S : Samples F) (s : Core F) : Prop where
  nv : NV d S s
  cg : CG d S s
  nSamples : s.nSamples = S.length
  mu : s.mu = Gen.mu S
  isSetup : s.isSetup = true

/-- The same after the setup / running-mean statement for a further sample. -/
structure Mid (d : ℕ) (S : Samples F) (x : List F) (c : ℤ) (s : Core F) : Prop where
  nv : NV d S s
  cg : CG d S s
  mu : s.mu = Gen.mu (S ++ [(x, c)])
  isSetup : s.isSetup = true

theorem mid_first {s : Core F} {x : List F} {c : ℤ} (h1 : s.dim = d) (h2 : s.nClusters = 0) (h3 : s.n = ⟨false, []⟩)
    (h4 : s.v = Arr2.zeros 0 d) (h5 : s.CP = some ⟨false, []⟩) (h6 : s.G = some (Arr2.zeros 0 d)) (h7 : s.mu = x)
    (h8 : s.isSetup = true) : Mid d ([] : Samples F) x c s :=
  ⟨⟨h1, h2, h3, h4⟩, ⟨h5, h6⟩, h7, h8⟩

theorem mid_mu {S : Samples F} {s : Core F} {setupC : Vec F → Py (Core F) Unit} (hne : S ≠ []) {x : List F} (c : ℤ)
    (hS : S.Dim d) (hx : x.length = d) (h : Common d S s) :
    setupOrMu setupC x s = .ok () { s with mu := Gen.mu (S ++ [(x, c)]) } ∧
      Mid d S x c { s with mu := Gen.mu (S ++ [(x, c)]) } := by
  have hl : s.nSamples ≠ 0 := by rw [h.nSamples]; simpa using hne
  constructor
  · rw [setupOrMu]
    apply get_bind
    rw [if_neg hl]
    refine lift_bind ?_ rfl
    rw [h.mu, h.nSamples, runningMean_eq (mu_length S hne hS) hx, mu_append S x hne]
  · exact ⟨⟨h.nv.dim, h.nv.k, h.nv.n, h.nv.v⟩, ⟨h.cg.cp, h.cg.g⟩, rfl, h.isSetup⟩

/-! ## Reading distances -/

theorem pairs_map {α β : Type} (f : α → β) (l : List α) : pairs (l.map f) = (pairs l).map fun p => (f p.1, f p.2) := by
  induction l with
  | nil => rfl
  | cons a l ih => simp [pairs, ih, Function.comp_def]

theorem triuPairs_succ (n : ℕ) : Arr2.triuPairs (n + 1) =
    (List.range n).map (fun j => (0, j + 1)) ++ (Arr2.triuPairs n).map fun p => (p.1 + 1, p.2 + 1) := by
  unfold Arr2.triuPairs
  rw [List.range_succ_eq_map]
  simp only [List.flatMap_cons, List.filter_cons, List.map_flatMap, List.flatMap_map]
  congr 1
  · simp [List.filter_map, Function.comp_def]
  · congr 1
    funext i
    simp [List.filter_map, Function.comp_def]

theorem triuPairs_eq (n : ℕ) : Arr2.triuPairs n = pairs (List.range n) := by
  induction n with
  | zero => rfl
  | succ n ih =>
    rw [triuPairs_succ, List.range_succ_eq_map, pairs, pairs_map, ih, List.map_map]
    rfl

omit [Arith F] in
theorem upperVals_eq (ks : List ℤ) (g : ℤ → ℤ → F) : upperVals ks g = (pairs ks).map fun p => g p.1 p.2 := by
  have e : ks = (List.range ks.length).map fun i => ks.getD i 0 := by
    apply List.ext_getElem
    · simp
    · intro i h1 h2
      simp [h1]
  conv_rhs => rw [e, pairs_map, List.map_map]
  rw [upperVals, triuPairs_eq]
  rfl

theorem pairs_ne_nil {α : Type} {l : List α} (h : 1 < l.length) : pairs l ≠ [] := by
  match l, h with
  | a :: b :: l, _ => simp [pairs]

theorem amin_eq {l : List F} (h : l ≠ []) : Vec.amin l = .ok (low l) := by
  cases l with
  | nil => exact absurd rfl h
  | cons a l => rfl

theorem amax_eq {l : List F} (h : l ≠ []) : Vec.amax l = .ok (high l) := by
  cases l with
  | nil => exact absurd rfl h
  | cons a l => rfl

theorem triu_eq {I : Index} {S : Samples F} {s : Core F} (h : Dist I S s) :
    s.D.triu (order S).length = .ok (distances I S) := by
  rw [triu_upper (h ▸ upper_sqMat _ _), upperVals_eq]
  rfl

theorem distances_ne_nil {I : Index} {S : Samples F} (h : 1 < (order S).length) : distances I S ≠ [] := by
  simpa [distances] using pairs_ne_nil h

end Verif.Gen
