import Verif.Proofs.SpecStep

/-!
# Shared steps of the incremental updates

`RepNV`, `RepCP`, `RepG` say that the attributes of an object are the tables of the specification.
-/

namespace Verif
open Spec Py

variable {d : ℕ}

theorem bind_ok_of {σ α β : Type} {x : Py σ α} {f : α → Py σ β} {s s1 : σ} {a : α} {r : Res σ β}
    (h1 : x s = .ok a s1) (h2 : f a s1 = r) : (x >>= f) s = r := by
  rw [bind_apply, h1, Res.bind_ok, h2]

theorem get_bind {σ β : Type} {f : σ → Py σ β} {s : σ} {r : Res σ β} (h : f s s = r) : (Py.get >>= f) s = r := h

theorem modify_bind {σ β : Type} {g : σ → σ} {f : Unit → Py σ β} {s : σ} {r : Res σ β}
    (h : f () (g s) = r) : (Py.modify g >>= f) s = r := h

theorem lift_bind {σ α β : Type} {e : Except PyErr α} {a : α} {f : α → Py σ β} {s : σ} {r : Res σ β}
    (h1 : e = .ok a) (h2 : f a s = r) : (Py.lift e >>= f) s = r := by
  subst h1; exact h2

/-! ## Representation predicates -/

/-- `_dim`, `_n_clusters`, `_n`, `_v` are those of the data set `S` with internal labels numbering `ks`. -/
structure RepNV (b : Bool) (ks : List ℤ) (S : Stream d) (s : Core) : Prop where
  dim : s.dim = d
  k : s.nClusters = ks.length
  n : s.n = ⟨b, ks.map (size S)⟩
  v : s.v = ⟨d, ks.map fun c => enc (centroid S c)⟩

/-- `_CP` holds the scatters. -/
def RepCP (b : Bool) (ks : List ℤ) (S : Stream d) (s : Core) : Prop :=
  s.CP = some ⟨b, ks.map fun c => XR.fin (scatter S c)⟩

/-- `_G` holds zero rows. -/
def RepG (d : ℕ) (ks : List ℤ) (s : Core) : Prop :=
  s.G = some ⟨d, ks.map fun _ => enc (fun _ : Fin d => (0 : ℝ))⟩

/-! ## Single assignments -/

section
variable {F : Type}

theorem setN_rep {s : Core F} {b : Bool} {ks : List ℤ} {c : ℤ} {f f' : ℤ → ℕ} {x : ℕ}
    (hn : ks.Nodup) (hc : c ∈ ks) (h : s.n = ⟨b, ks.map f⟩) (hx : x = f' c) (hf : ∀ a ∈ ks, a ≠ c → f' a = f a) :
    setN (ks.idxOf c) x s = .ok () { s with n := ⟨b, ks.map f'⟩ } := by
  have hl := List.idxOf_lt_length_of_mem hc
  simp [setN, h, Seq.set, hl, map_set hn f f' x hx hf]

theorem setCP_rep {s : Core F} {b : Bool} {ks : List ℤ} {c : ℤ} {f f' : ℤ → F} {x : F}
    (hn : ks.Nodup) (hc : c ∈ ks) (h : s.CP = some ⟨b, ks.map f⟩) (hx : x = f' c) (hf : ∀ a ∈ ks, a ≠ c → f' a = f a) :
    setCP (ks.idxOf c) x s = .ok () { s with CP := some ⟨b, ks.map f'⟩ } := by
  have hl := List.idxOf_lt_length_of_mem hc
  simp [setCP, h, attr, Seq.set, hl, map_set hn f f' x hx hf]

theorem setRow_rep [Zero F] {ks : List ℤ} {c : ℤ} {f f' : ℤ → Vec F} {x : Vec F}
    (hn : ks.Nodup) (hc : c ∈ ks) (hx : x = f' c) (hd : x.length = d) (hf : ∀ a ∈ ks, a ≠ c → f' a = f a) :
    Arr2.setRow ⟨d, ks.map f⟩ (ks.idxOf c) x = .ok ⟨d, ks.map f'⟩ := by
  have hl := List.idxOf_lt_length_of_mem hc
  simp [Arr2.setRow, hl, Vec.broadcastTo, hd, map_set hn f f' x hx hf]

theorem setV_rep [Zero F] {s : Core F} {ks : List ℤ} {c : ℤ} {f f' : ℤ → Vec F} {x : Vec F}
    (hn : ks.Nodup) (hc : c ∈ ks) (h : s.v = ⟨d, ks.map f⟩) (hx : x = f' c) (hd : x.length = d)
    (hf : ∀ a ∈ ks, a ≠ c → f' a = f a) :
    setV (ks.idxOf c) x s = .ok () { s with v := ⟨d, ks.map f'⟩ } := by
  simp [setV, h, setRow_rep hn hc hx hd hf]

theorem setG_rep [Zero F] {s : Core F} {ks : List ℤ} {c : ℤ} {f f' : ℤ → Vec F} {x : Vec F}
    (hn : ks.Nodup) (hc : c ∈ ks) (h : s.G = some ⟨d, ks.map f⟩) (hx : x = f' c) (hd : x.length = d)
    (hf : ∀ a ∈ ks, a ≠ c → f' a = f a) :
    setG (ks.idxOf c) x s = .ok () { s with G := some ⟨d, ks.map f'⟩ } := by
  simp [setG, h, attr, setRow_rep hn hc hx hd hf]

theorem appendN_rep {s : Core F} {ks : List ℤ} {c : ℤ} {f f' : ℤ → ℕ} {x : ℕ}
    (hc : c ∉ ks) (h : s.n = ⟨false, ks.map f⟩) (hx : x = f' c) (hf : ∀ a ∈ ks, a ≠ c → f' a = f a) :
    appendN x s = .ok () { s with n := ⟨false, (ks ++ [c]).map f'⟩ } := by
  simp only [appendN, bind_apply, get_apply, Res.bind_ok, h, Seq.append, map_append_new hc f f' x hx hf]
  rfl

theorem appendCP_rep {s : Core F} {ks : List ℤ} {c : ℤ} {f f' : ℤ → F} {x : F}
    (hc : c ∉ ks) (h : s.CP = some ⟨false, ks.map f⟩) (hx : x = f' c) (hf : ∀ a ∈ ks, a ≠ c → f' a = f a) :
    appendCP x s = .ok () { s with CP := some ⟨false, (ks ++ [c]).map f'⟩ } := by
  simp only [appendCP, bind_apply, get_apply, Res.bind_ok, h, attr, lift_ok, Seq.append, map_append_new hc f f' x hx hf]
  rfl

theorem vstackV_rep {s : Core F} {ks : List ℤ} {c : ℤ} {f f' : ℤ → Vec F} {x : Vec F}
    (hc : c ∉ ks) (h : s.v = ⟨d, ks.map f⟩) (hx : x = f' c) (hd : x.length = d)
    (hf : ∀ a ∈ ks, a ≠ c → f' a = f a) :
    vstackV x s = .ok () { s with v := ⟨d, (ks ++ [c]).map f'⟩ } := by
  simp only [vstackV, bind_apply, get_apply, Res.bind_ok, h, Arr2.vstack, hd, if_true, lift_ok,
    map_append_new hc f f' x hx hf, modify_apply]

theorem vstackG_rep {s : Core F} {ks : List ℤ} {c : ℤ} {f f' : ℤ → Vec F} {x : Vec F}
    (hc : c ∉ ks) (h : s.G = some ⟨d, ks.map f⟩) (hx : x = f' c) (hd : x.length = d)
    (hf : ∀ a ∈ ks, a ≠ c → f' a = f a) :
    vstackG x s = .ok () { s with G := some ⟨d, (ks ++ [c]).map f'⟩ } := by
  simp only [vstackG, bind_apply, get_apply, Res.bind_ok, h, attr, Arr2.vstack, hd, if_true, lift_ok,
    map_append_new hc f f' x hx hf, modify_apply]

theorem setD_rep [Zero F] {s : Core F} {ks : List ℤ} {c : ℤ} {g g' : ℤ → ℤ → F} {r : ℤ → F}
    (hn : ks.Nodup) (hc : c ∈ ks) (h : s.D = sqMat ks g) (hr : ∀ a ∈ ks, g' c a = r a) (hs : ∀ a ∈ ks, g' a c = r a)
    (hg : ∀ a ∈ ks, ∀ b ∈ ks, a ≠ c → b ≠ c → g' a b = g a b) :
    setD (ks.idxOf c) (ks.map r) s = .ok () { s with D := sqMat ks g' } := by
  have h1 := sqMat_setRow hn (g := g) hc r
  have h2 := sqMat_setCross hn (g := g) (g' := g') hc r r (fun b hb _ => hr b hb) hs hg
  rw [setCross, h1, except_bind_ok] at h2
  simp [setD, h, h1, h2]

/-! ## Reading a row -/

theorem row_rep {ks : List ℤ} {c : ℤ} {f : ℤ → Vec F} (hc : c ∈ ks) :
    Arr2.row ⟨d, ks.map f⟩ (ks.idxOf c) = .ok (f c) := by
  simp only [Arr2.row]; rw [getElem?_map_idxOf hc]

theorem get_rep {α : Type} {b : Bool} {ks : List ℤ} {c : ℤ} {f : ℤ → α} (hc : c ∈ ks) :
    Seq.get ⟨b, ks.map f⟩ (ks.idxOf c) = .ok (f c) := by
  simp only [Seq.get]; rw [getElem?_map_idxOf hc]

end

/-! ## The statistics of an existing cluster -/

theorem centroid_step (S : Stream d) (x : Pt d) (c : ℤ) :
    runningMean (size S c + 1) (enc (centroid S c)) (enc x) = .ok (enc (centroid (S ++ [(x, c)]) c)) := by
  rw [runningMean_enc]
  congr 1
  apply enc_congr
  intro i
  rw [centroid_append_self]

theorem oldStats_rep {s : Core} {b b' : Bool} {ks : List ℤ} {S : Stream d} {c : ℤ} (x : Pt d) (hks : KeysOf ks S)
    (hc : c ∈ ks) (h : RepNV b ks S s) (hCP : RepCP b' ks S s) (hG : RepG d ks s) :
    oldStats (enc x) (ks.idxOf c) s =
      .ok ⟨size (S ++ [(x, c)]) c, enc (centroid (S ++ [(x, c)]) c), .fin (scatter (S ++ [(x, c)]) c),
        enc fun _ : Fin d => 0⟩ := by
  have hcl := (hks.mem c).mp hc
  unfold oldStats
  rw [h.n, get_rep hc, except_bind_ok]
  simp only
  rw [h.v, row_rep hc, except_bind_ok, centroid_step, except_bind_ok, sub_enc, except_bind_ok, sub_enc, except_bind_ok,
    hCP, attr, except_bind_ok, get_rep hc, except_bind_ok, hG, attr, except_bind_ok, row_rep hc, except_bind_ok]
  have e1 : compactnessNew (.fin (scatter S c)) (size S c) (enc fun i => x i - centroid (S ++ [(x, c)]) c i)
      (enc fun i => centroid S c i - centroid (S ++ [(x, c)]) c i) (enc fun _ : Fin d => 0) =
      .ok (.fin (scatter (S ++ [(x, c)]) c)) := by
    simp only [compactnessNew, inner_enc, except_bind_ok, except_pure, XR.fin_mul, XR.fin_add]
    congr 2
    rw [scatter_append_old S x hcl]
    simp only [dist2, mul_zero, Finset.sum_const_zero, pow_two]
    ring
  have e2 : gNew (size S c) (enc fun _ : Fin d => 0) (enc fun i => x i - centroid (S ++ [(x, c)]) c i)
      (enc fun i => centroid S c i - centroid (S ++ [(x, c)]) c i) = .ok (enc fun _ : Fin d => 0) := by
    simp only [gNew, add_enc, smul_enc, except_bind_ok]
    congr 1
    apply enc_congr
    intro i
    have := deviation_append S x c i
    linarith
  rw [e1, except_bind_ok, e2, except_bind_ok, size_append_self]
  rfl

/-! ## Setup and running mean of all samples -/

/-- The attributes before the first sample, or after some samples `S`. -/
def Start (init : Core) (R : Stream d → Core → Prop) (S : Stream d) (s : Core) : Prop :=
  (S = [] ∧ s = init) ∨ (S ≠ [] ∧ R S s)

theorem mean_step (S : Stream d) (x : Pt d) (c : ℤ) :
    runningMean (S.length + 1) (enc (mean S)) (enc x) = .ok (enc (mean (S ++ [(x, c)]))) := by
  rw [runningMean_enc]
  congr 1
  apply enc_congr
  intro i
  rw [mean_append]

/-- Comparing the internal label with the number of clusters. -/
theorem isNew_iff {ks : List ℤ} {c : ℤ} {k : ℕ} (hk : k = ks.length) :
    ((ks.idxOf c : ℤ) > (k : ℤ) - 1) ↔ c ∉ ks := by
  subst hk
  rw [← List.idxOf_lt_length_iff]
  omega

theorem addKey_new {ks : List ℤ} {c : ℤ} (h : c ∉ ks) : addKey ks c = ks ++ [c] := if_neg h
theorem addKey_old {ks : List ℤ} {c : ℤ} (h : c ∈ ks) : addKey ks c = ks := if_pos h

end Verif

namespace Verif
open Spec Py
variable {d : ℕ}

/-- The object with the tables of the data set `S`, internal labels numbering `ks`. -/
noncomputable def tabled (b : Bool) (ks : List ℤ) (S : Stream d) (s : Core) : Core :=
  { s with
    nClusters := ks.length
    n := ⟨b, ks.map (size S)⟩
    v := ⟨d, ks.map fun c => enc (centroid S c)⟩
    CP := some ⟨b, ks.map fun c => XR.fin (scatter S c)⟩
    G := some ⟨d, ks.map fun _ => enc (fun _ : Fin d => (0 : ℝ))⟩ }

/-- Appending a new cluster to `_n_clusters`, `_n`, `_CP`, `_v`, `_G`. -/
theorem append_tables {β : Type} {S : Stream d} {ks : List ℤ} {s : Core} {x : Pt d} {c : ℤ} (hks : KeysOf ks S)
    (hc : c ∉ ks) (nv : RepNV false ks S s) (cp : RepCP false ks S s) (g : RepG d ks s) (k : Unit → Py Core β) :
    (incClusters >>= fun _ => appendN 1 >>= fun _ => appendCP 0 >>= fun _ => vstackV (enc x) >>= fun _ =>
      vstackG (Vec.zeros s.dim) >>= k) s = k () (tabled false (ks ++ [c]) (S ++ [(x, c)]) s) := by
  have hcl : c ∉ labels S := fun h => hc ((hks.mem c).mpr h)
  refine modify_bind ?_
  refine bind_ok_of (appendN_rep hc nv.n (f' := size (S ++ [(x, c)])) (size_append_new S x hcl).symm
    fun a _ ha => size_append_ne S x ha) ?_
  refine bind_ok_of (appendCP_rep hc cp (f' := fun a => XR.fin (scatter (S ++ [(x, c)]) a))
    (by rw [scatter_append_new S x hcl]; rfl) fun a _ ha => by rw [scatter_append_ne S x ha]) ?_
  refine bind_ok_of (vstackV_rep hc nv.v (f' := fun a => enc (centroid (S ++ [(x, c)]) a))
    (by rw [centroid_append_new S x hcl]) (by simp) fun a _ ha => by rw [centroid_append_ne S x ha]) ?_
  refine bind_ok_of (vstackG_rep hc g (f' := fun _ => enc (fun _ : Fin d => 0)) (by rw [nv.dim, zeros_eq_enc])
    (by simp [nv.dim, zeros_eq_enc]) fun _ _ _ => rfl) ?_
  simp [tabled, nv.k]

/-- Updating the entries of an existing cluster in `_n`, `_v`, `_CP`, `_G`. -/
theorem set_tables {β : Type} {b : Bool} {S : Stream d} {ks : List ℤ} {s : Core} {x : Pt d} {c : ℤ} (hks : KeysOf ks S)
    (hc : c ∈ ks) (nv : RepNV b ks S s) (cp : RepCP b ks S s) (g : RepG d ks s) (k : Unit → Py Core β) :
    (setN (ks.idxOf c) (size (S ++ [(x, c)]) c) >>= fun _ =>
      setV (ks.idxOf c) (enc (centroid (S ++ [(x, c)]) c)) >>= fun _ =>
      setCP (ks.idxOf c) (.fin (scatter (S ++ [(x, c)]) c)) >>= fun _ =>
      setG (ks.idxOf c) (enc fun _ : Fin d => 0) >>= k) s = k () (tabled b ks (S ++ [(x, c)]) s) := by
  refine bind_ok_of (setN_rep hks.nodup hc nv.n (f' := size (S ++ [(x, c)])) rfl
    fun a _ ha => size_append_ne S x ha) ?_
  refine bind_ok_of (setV_rep hks.nodup hc nv.v (f' := fun a => enc (centroid (S ++ [(x, c)]) a))
    rfl (by simp) fun a _ ha => by rw [centroid_append_ne S x ha]) ?_
  refine bind_ok_of (setCP_rep hks.nodup hc cp (f' := fun a => XR.fin (scatter (S ++ [(x, c)]) a))
    rfl fun a _ ha => by rw [scatter_append_ne S x ha]) ?_
  refine bind_ok_of (setG_rep hks.nodup hc g (f' := fun _ => enc (fun _ : Fin d => 0)) rfl (by simp)
    fun _ _ _ => rfl) ?_
  simp [tabled, ← nv.k]

theorem bind_pure_unit {σ : Type} (x : Py σ Unit) : (x >>= fun _ => pure ()) = x := by
  funext s
  rw [bind_apply]
  cases x s <;> rfl

theorem tabled_nv {b : Bool} {ks : List ℤ} {S : Stream d} {s : Core} (h : s.dim = d) :
    RepNV b ks S (tabled b ks S s) := ⟨h, rfl, rfl, rfl⟩

theorem tabled_cp {b : Bool} {ks : List ℤ} {S : Stream d} {s : Core} : RepCP b ks S (tabled b ks S s) := rfl
theorem tabled_g {b : Bool} {ks : List ℤ} {S : Stream d} {s : Core} : RepG d ks (tabled b ks S s) := rfl

/-- The classes with `_mu` and `_G`: attributes after the samples `S`. -/
structure RepMu (S : Stream d) (s : Core) : Prop where
  nv : RepNV false (keys S) S s
  cp : RepCP false (keys S) S s
  g : RepG d (keys S) s
  nSamples : s.nSamples = S.length
  mu : s.mu = enc (mean S)
  isSetup : s.isSetup = true

/-- The same after the setup / running-mean statement for a further sample. -/
structure MidMu (S : Stream d) (x : Pt d) (c : ℤ) (s : Core) : Prop where
  nv : RepNV false (keys S) S s
  cp : RepCP false (keys S) S s
  g : RepG d (keys S) s
  mu : s.mu = enc (mean (S ++ [(x, c)]))
  isSetup : s.isSetup = true

/-- Setup by the first sample. -/
theorem mid_of_init {s : Core} {x : Pt d} {c : ℤ} (h1 : s.dim = d) (h2 : s.nClusters = 0) (h3 : s.n = ⟨false, []⟩)
    (h4 : s.v = Arr2.zeros 0 d) (h5 : s.CP = some ⟨false, []⟩) (h6 : s.G = some (Arr2.zeros 0 d)) (h7 : s.mu = enc x)
    (h8 : s.isSetup = true) : MidMu ([] : Stream d) x c s :=
  ⟨⟨h1, h2, h3, h4⟩, h5, h6, by simpa [mean_singleton] using h7, h8⟩

/-- Running mean by a later sample. -/
theorem mid_of_mu {S : Stream d} {s : Core} {setupC : Vec → Py Core Unit} (hne : S ≠ []) (x : Pt d) (c : ℤ)
    (h : RepMu S s) :
    setupOrMu setupC (enc x) s = .ok () { s with mu := enc (mean (S ++ [(x, c)])) } ∧
      MidMu S x c { s with mu := enc (mean (S ++ [(x, c)])) } := by
  have hl : s.nSamples ≠ 0 := by rw [h.nSamples]; simpa using hne
  constructor
  · rw [setupOrMu]
    apply get_bind
    rw [if_neg hl]
    exact lift_bind (h.nSamples ▸ h.mu ▸ mean_step S x c) rfl
  · exact ⟨⟨h.nv.dim, h.nv.k, h.nv.n, h.nv.v⟩, h.cp, h.g, rfl, h.isSetup⟩

end Verif
