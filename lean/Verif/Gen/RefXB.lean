import Verif.Gen.Inc
import Verif.Gen.XB
import Verif.Gen.GD43
import Verif.Gen.GD53

/-! # XB, GD43 and GD53 in any arithmetic -/

namespace Verif.Gen
open Py

variable {F : Type} [Arith F] {d : ℕ}

/-- The attributes after the samples `S` of a class with a table of distances. -/
structure RepD (d : ℕ) (I : Index) (S : Samples F) (s : Core F) : Prop extends Common d S s where
  D : Dist I S s

theorem RepD.start {I : Index} {setupC : Vec F → Py (Core F) Unit} {S : Samples F} {s : Core F} {x : List F} (c : ℤ)
    (hS : S.Dim d) (hx : x.length = d) (h : Start init (RepD d I) S s)
    (h0 : ∃ s', setupC x init = .ok () s' ∧ Mid d [] x c s') :
    s.nSamples = S.length ∧ ∃ s', setupOrMu setupC x s = .ok () s' ∧ Mid d S x c s' ∧
      (order S ≠ [] → Dist I S s') := by
  rcases h with ⟨rfl, rfl⟩ | ⟨hne, h⟩
  · obtain ⟨s', e, hm⟩ := h0
    exact ⟨rfl, s', by rw [setupOrMu]; exact get_bind e, hm, fun h => absurd rfl h⟩
  · obtain ⟨h1, h2⟩ := mid_mu (setupC := setupC) hne c hS hx h.toCommon
    exact ⟨h.nSamples, _, h1, h2, fun _ => h.D⟩

/-- A call, from the two branches. -/
theorem RepD.step {I : Index} {setupC : Vec F → Py (Core F) Unit} {incNew incOld : Vec F → ℕ → Py (Core F) Unit}
    {S : Samples F} {s : Core F} {x : List F} {c : ℤ} (hS : S.Dim d) (hx : x.length = d)
    (h : Start init (RepD d I) S s) (h0 : ∃ s', setupC x init = .ok () s' ∧ Mid d [] x c s')
    (hb : ∀ s, Mid d S x c s → (order S ≠ [] → Dist I S s) →
      (if ((order S).idxOf c : ℤ) > (s.nClusters : ℤ) - 1 then incNew x ((order S).idxOf c)
        else incOld x ((order S).idxOf c)) s =
      .ok () { withTables d (S ++ [(x, c)]) s with D := sqMat (order (S ++ [(x, c)])) (table I (S ++ [(x, c)])) }) :
    ∃ s', (get >>= fun s0 => setupOrMu setupC x >>= fun _ => get >>= fun s =>
      (if ((order S).idxOf c : ℤ) > (s.nClusters : ℤ) - 1 then incNew x ((order S).idxOf c)
        else incOld x ((order S).idxOf c)) >>= fun _ =>
      modify fun s => { s with nSamples := s0.nSamples + 1 }) s = .ok () s' ∧ RepD d I (S ++ [(x, c)]) s' := by
  obtain ⟨hn, s1, h1, hm, hD⟩ := RepD.start c hS hx h h0
  refine ⟨_, get_bind (bind_ok_of h1 (get_bind (bind_ok_of (hb s1 hm hD) rfl))), ?_⟩
  refine ⟨⟨⟨hm.nv.dim, rfl, rfl, rfl⟩, ⟨rfl, rfl⟩, ?_, hm.mu, hm.isSetup⟩, rfl⟩
  simp [hn]

theorem RepD.congr {I : Index} {S : Samples F} {s s' : Core F} (h : RepD d I S s) (h1 : s'.dim = s.dim)
    (h2 : s'.nClusters = s.nClusters) (h3 : s'.n = s.n) (h4 : s'.v = s.v) (h5 : s'.CP = s.CP) (h6 : s'.G = s.G)
    (h7 : s'.nSamples = s.nSamples) (h8 : s'.mu = s.mu) (h9 : s'.isSetup = s.isSetup) (h10 : s'.D = s.D) :
    RepD d I S s' :=
  ⟨⟨⟨h1 ▸ h.nv.dim, h2 ▸ h.nv.k, h3 ▸ h.nv.n, h4 ▸ h.nv.v⟩, ⟨h5 ▸ h.cg.cp, h6 ▸ h.cg.g⟩, h7 ▸ h.nSamples, h8 ▸ h.mu,
    h9 ▸ h.isSetup⟩, h10.trans h.D⟩

theorem XB.dist_eq {S : Samples F} {s : Core F} {a : ℤ} (hS : S.Dim d) (nv : NV d S s) {w : List F} (hw : w.length = d)
    (ha : a ∈ order S) : XB.dist s w ((order S).idxOf a) =
      .ok (Arith.npSum ((List.zipWith (· - ·) w (stat S a).v).map Arith.sq)) := by
  simp only [XB.dist, nv.v, row_rep ha, except_bind_ok, sqDist_eq hw (stat_v_length S ha hS)]

theorem XB.branch {S : Samples F} {s : Core F} {x : List F} {c : ℤ} (hS : S.Dim d) (hx : x.length = d)
    (h : Mid d S x c s) (hD : order S ≠ [] → Dist .XB S s) :
    (if ((order S).idxOf c : ℤ) > (s.nClusters : ℤ) - 1 then XB.incNew x ((order S).idxOf c)
      else XB.incOld x ((order S).idxOf c)) s =
      .ok () { withTables d (S ++ [(x, c)]) s with D := sqMat (order (S ++ [(x, c)])) (table .XB (S ++ [(x, c)])) } := by
  by_cases hc : c ∈ order S
  · rw [if_neg (by rw [isNew_iff h.nv.k]; simpa using hc), XB.incOld]
    have hv := stat_v_length (S ++ [(x, c)]) (c := c) (by rw [order_old S x hc]; exact hc) (hS.append hx)
    refine get_bind (lift_bind (oldStats_eq hS hx hc h.nv h.cg) ?_)
    refine lift_bind (columnOld_eq (I := .XB) (x := x) h.nv.k fun a ha _ => XB.dist_eq hS h.nv hv ha) ?_
    rw [set_tables hS hx hc h.nv h.cg]
    exact setD_eq hc (hD (List.ne_nil_of_mem hc))
  · rw [if_pos (by rw [isNew_iff h.nv.k]; exact hc), XB.incNew]
    refine get_bind (lift_bind (distNew_eq (I := .XB) (x := x) hc h.nv.k hD fun a ha => ?_) ?_)
    · rw [XB.dist_eq hS h.nv hx ha, stat_new S x hc]; rfl
    · rw [append_tables hx hc h.nv h.cg]; rfl

theorem XB.setup_eq (x : List F) (c : ℤ) : ∃ s', XB.setup x init = .ok () s' ∧ Mid x.length [] x c s' := by
  refine ⟨_, rfl, mid_first ?_ rfl rfl ?_ rfl ?_ rfl rfl⟩ <;> simp

theorem XB.evaluate_eq {S : Samples F} {s : Core F} (h : RepD d .XB S s) :
    ∃ s', XB.evaluate s = .ok () s' ∧ s'.criterion = value d .XB S ∧ RepD d .XB S s' := by
  rw [XB.evaluate, bind_apply, get_apply, Res.bind_ok]
  by_cases hk : s.nClusters > 1
  · have hk' : 1 < (order S).length := h.nv.k ▸ hk
    rw [if_pos hk]
    have hl : s.D.rows.length = (order S).length := by rw [h.D]; simp [sqMat]
    refine ⟨_, lift_bind (a := ⟨false, (order S).map fun c => (stat S c).cp⟩) (by rw [h.cg.cp]; rfl)
      (modify_bind (lift_bind (by rw [hl]; exact triu_eq h.D) (lift_bind (amin_eq (distances_ne_nil hk')) rfl))), ?_, ?_⟩
    · simp [value, Nat.not_le.mpr hk', h.nSamples]
    · exact h.congr rfl rfl rfl rfl rfl rfl rfl rfl rfl rfl
  · rw [if_neg hk]
    refine ⟨_, rfl, ?_, h.congr rfl rfl rfl rfl rfl rfl rfl rfl rfl rfl⟩
    simp [value, ← h.nv.k, Nat.not_lt.mp hk]

theorem XB.refines : Refines d (XBmod (F := F)) (RepD d .XB) fun S r => r = value d .XB S where
  concrete := rfl
  step S s x c hS hx h := by
    subst hx
    exact RepD.step hS rfl h (XB.setup_eq x c) fun s' => XB.branch hS rfl
  eval _ _ _ _ h := XB.evaluate_eq h

/-! ## GD43 and GD53 -/

theorem GD43.dist_eq {S : Samples F} {s : Core F} {a : ℤ} (hS : S.Dim d) (nv : NV d S s) {w : List F}
    (hw : w.length = d) (ha : a ∈ order S) : GD43.dist s w ((order S).idxOf a) =
      .ok (Arith.sqrt (Arith.npSum ((List.zipWith (· - ·) w (stat S a).v).map Arith.sq))) := by
  simp only [GD43.dist, nv.v, row_rep ha, except_bind_ok, sqDist_eq hw (stat_v_length S ha hS)]
  rfl

theorem GD43.branch {S : Samples F} {s : Core F} {x : List F} {c : ℤ} (hS : S.Dim d) (hx : x.length = d)
    (h : Mid d S x c s) (hD : order S ≠ [] → Dist .GD43 S s) :
    (if ((order S).idxOf c : ℤ) > (s.nClusters : ℤ) - 1 then GD43.incNew x ((order S).idxOf c)
      else GD43.incOld x ((order S).idxOf c)) s =
      .ok () { withTables d (S ++ [(x, c)]) s with D := sqMat (order (S ++ [(x, c)])) (table .GD43 (S ++ [(x, c)])) } := by
  by_cases hc : c ∈ order S
  · rw [if_neg (by rw [isNew_iff h.nv.k]; simpa using hc), GD43.incOld]
    have hv := stat_v_length (S ++ [(x, c)]) (c := c) (by rw [order_old S x hc]; exact hc) (hS.append hx)
    refine get_bind (lift_bind (oldStats_eq hS hx hc h.nv h.cg) ?_)
    refine lift_bind (columnOld_eq (I := .GD43) (x := x) h.nv.k fun a ha _ => GD43.dist_eq hS h.nv hv ha) ?_
    rw [set_tables hS hx hc h.nv h.cg]
    exact setD_eq hc (hD (List.ne_nil_of_mem hc))
  · rw [if_pos (by rw [isNew_iff h.nv.k]; exact hc), GD43.incNew]
    refine get_bind (lift_bind (distNew_eq (I := .GD43) (x := x) hc h.nv.k hD fun a ha => ?_) ?_)
    · rw [GD43.dist_eq hS h.nv hx ha, stat_new S x hc]; rfl
    · rw [append_tables hx hc h.nv h.cg]; rfl

theorem GD53.dist_eq {S : Samples F} {s : Core F} {a : ℤ} (nv : NV d S s) (cg : CG d S s) (cp : F) (n : ℕ)
    (ha : a ∈ order S) : GD53.dist s cp n ((order S).idxOf a) =
      .ok ((cp + (stat S a).cp) / Arith.ofNat (n + (stat S a).n)) := by
  simp only [GD53.dist, nv.n, cg.cp, attr, get_rep ha, except_bind_ok]
  rfl

theorem GD53.branch {S : Samples F} {s : Core F} {x : List F} {c : ℤ} (hS : S.Dim d) (hx : x.length = d)
    (h : Mid d S x c s) (hD : order S ≠ [] → Dist .GD53 S s) :
    (if ((order S).idxOf c : ℤ) > (s.nClusters : ℤ) - 1 then GD53.incNew x ((order S).idxOf c)
      else GD53.incOld x ((order S).idxOf c)) s =
      .ok () { withTables d (S ++ [(x, c)]) s with D := sqMat (order (S ++ [(x, c)])) (table .GD53 (S ++ [(x, c)])) } := by
  by_cases hc : c ∈ order S
  · rw [if_neg (by rw [isNew_iff h.nv.k]; simpa using hc), GD53.incOld]
    refine get_bind (lift_bind (oldStats_eq hS hx hc h.nv h.cg) ?_)
    refine lift_bind (columnOld_eq (I := .GD53) (x := x) h.nv.k fun a ha _ => GD53.dist_eq h.nv h.cg _ _ ha) ?_
    rw [set_tables hS hx hc h.nv h.cg]
    exact setD_eq hc (hD (List.ne_nil_of_mem hc))
  · rw [if_pos (by rw [isNew_iff h.nv.k]; exact hc), GD53.incNew]
    refine get_bind (lift_bind (distNew_eq (I := .GD53) (x := x) hc h.nv.k hD fun a ha => ?_) ?_)
    · rw [GD53.dist_eq h.nv h.cg _ _ ha, stat_new S x hc]; rfl
    · rw [append_tables hx hc h.nv h.cg]; rfl

theorem GD43.setup_eq (x : List F) (c : ℤ) : ∃ s', GD43.setup x init = .ok () s' ∧ Mid x.length [] x c s' := by
  refine ⟨_, rfl, mid_first ?_ rfl rfl ?_ rfl ?_ rfl rfl⟩ <;> simp

theorem GD53.setup_eq (x : List F) (c : ℤ) : ∃ s', GD53.setup x init = .ok () s' ∧ Mid x.length [] x c s' := by
  refine ⟨_, rfl, mid_first ?_ rfl rfl ?_ rfl ?_ rfl rfl⟩ <;> simp

theorem maxScatter_eq (S : Samples F) (h : 1 < (order S).length) :
    GD43.maxScatter ((order S).map fun c => (stat S c).cp) ((order S).map fun c => (stat S c).n) =
      .ok (high ((order S).map fun c => (stat S c).cp / Arith.ofNat (stat S c).n)) := by
  rw [GD43.maxScatter, Vec.bin, if_pos (by simp), except_bind_ok, List.map_map, List.zipWith_map, List.zipWith_self]
  refine amax_eq fun e => ?_
  rw [List.map_eq_nil_iff] at e
  simp [e] at h

theorem minUpper_eq {I : Index} {S : Samples F} {s : Core F} (h : RepD d I S s) (hk : 1 < (order S).length) :
    GD43.minUpper s.nClusters s.D = .ok (low (distances I S)) := by
  have hu : Upper (order S) (table I S) s.D := h.D ▸ upper_sqMat _ _
  rw [h.nv.k, GD43.minUpper, if_pos ⟨hu.1, hu.2.1⟩, triu_eq h.D, except_bind_ok, amin_eq (distances_ne_nil hk)]

theorem GD43.evaluate_eq {S : Samples F} {s : Core F} (h : RepD d .GD43 S s) :
    ∃ s', GD43.evaluate s = .ok () s' ∧ s'.criterion = value d .GD43 S ∧ RepD d .GD43 S s' := by
  rw [GD43.evaluate, bind_apply, get_apply, Res.bind_ok]
  by_cases hk : s.nClusters > 1
  · have hk' : 1 < (order S).length := h.nv.k ▸ hk
    rw [if_pos hk]
    refine ⟨_, lift_bind (a := ⟨false, (order S).map fun c => (stat S c).cp⟩) (by rw [h.cg.cp]; rfl)
      (lift_bind (by rw [h.nv.n]; exact maxScatter_eq S hk') (modify_bind (lift_bind (minUpper_eq h hk') rfl))), ?_, ?_⟩
    · simp [value, Nat.not_le.mpr hk']
    · exact h.congr rfl rfl rfl rfl rfl rfl rfl rfl rfl rfl
  · rw [if_neg hk]
    refine ⟨_, rfl, ?_, h.congr rfl rfl rfl rfl rfl rfl rfl rfl rfl rfl⟩
    simp [value, ← h.nv.k, Nat.not_lt.mp hk]

theorem GD53.evaluate_eq {S : Samples F} {s : Core F} (h : RepD d .GD53 S s) :
    ∃ s', GD53.evaluate s = .ok () s' ∧ s'.criterion = value d .GD53 S ∧ RepD d .GD53 S s' := by
  rw [GD53.evaluate, bind_apply, get_apply, Res.bind_ok]
  by_cases hk : s.nClusters > 1
  · have hk' : 1 < (order S).length := h.nv.k ▸ hk
    rw [if_pos hk]
    refine ⟨_, lift_bind (a := ⟨false, (order S).map fun c => (stat S c).cp⟩) (by rw [h.cg.cp]; rfl)
      (lift_bind (by rw [h.nv.n]; exact maxScatter_eq S hk') (modify_bind (lift_bind (minUpper_eq h hk') rfl))), ?_, ?_⟩
    · simp [value, Nat.not_le.mpr hk']
    · exact h.congr rfl rfl rfl rfl rfl rfl rfl rfl rfl rfl
  · rw [if_neg hk]
    refine ⟨_, rfl, ?_, h.congr rfl rfl rfl rfl rfl rfl rfl rfl rfl rfl⟩
    simp [value, ← h.nv.k, Nat.not_lt.mp hk]

theorem GD43.refines : Refines d (GD43mod (F := F)) (RepD d .GD43) fun S r => r = value d .GD43 S where
  concrete := rfl
  step S s x c hS hx h := by
    subst hx
    exact RepD.step hS rfl h (GD43.setup_eq x c) fun s' => GD43.branch hS rfl
  eval _ _ _ _ h := GD43.evaluate_eq h

theorem GD53.refines : Refines d (GD53mod (F := F)) (RepD d .GD53) fun S r => r = value d .GD53 S where
  concrete := rfl
  step S s x c hS hx h := by
    subst hx
    exact RepD.step hS rfl h (GD53.setup_eq x c) fun s' => GD53.branch hS rfl
  eval _ _ _ _ h := GD53.evaluate_eq h

end Verif.Gen
