import Verif.Gen.Inc
import Verif.Gen.CH
import Verif.Gen.WB

/-! # CH and WB in any arithmetic -/

namespace Verif.Gen
open Py

variable {F : Type} [Arith F] {d : ℕ}

/-- The attributes after the samples `S`. -/
structure RepSep (d : ℕ) (S : Samples F) (s : Core F) : Prop extends Common d S s where
  SEP : s.SEP = (order S).map (separation S)

theorem RepSep.congr {S : Samples F} {s s' : Core F} (h : RepSep d S s) (h1 : s'.dim = s.dim)
    (h2 : s'.nClusters = s.nClusters) (h3 : s'.n = s.n) (h4 : s'.v = s.v) (h5 : s'.CP = s.CP) (h6 : s'.G = s.G)
    (h7 : s'.nSamples = s.nSamples) (h8 : s'.mu = s.mu) (h9 : s'.isSetup = s.isSetup) (h10 : s'.SEP = s.SEP) :
    RepSep d S s' :=
  ⟨⟨⟨h1 ▸ h.nv.dim, h2 ▸ h.nv.k, h3 ▸ h.nv.n, h4 ▸ h.nv.v⟩, ⟨h5 ▸ h.cg.cp, h6 ▸ h.cg.g⟩, h7 ▸ h.nSamples, h8 ▸ h.mu,
    h9 ▸ h.isSetup⟩, h10.trans h.SEP⟩

theorem RepSep.start {setupC : Vec F → Py (Core F) Unit} {S : Samples F} {s : Core F} {x : List F} (c : ℤ)
    (hS : S.Dim d) (hx : x.length = d) (h : Start init (RepSep d) S s)
    (h0 : ∃ s', setupC x init = .ok () s' ∧ Mid d [] x c s') :
    s.nSamples = S.length ∧ ∃ s', setupOrMu setupC x s = .ok () s' ∧ Mid d S x c s' := by
  rcases h with ⟨rfl, rfl⟩ | ⟨hne, h⟩
  · obtain ⟨s', e, hm⟩ := h0
    exact ⟨rfl, s', by rw [setupOrMu]; exact get_bind e, hm⟩
  · obtain ⟨h1, h2⟩ := mid_mu (setupC := setupC) hne c hS hx h.toCommon
    exact ⟨h.nSamples, _, h1, h2⟩

/-! ## CH -/

theorem CH.branch {S : Samples F} {s : Core F} {x : List F} {c : ℤ} (hS : S.Dim d) (hx : x.length = d)
    (h : Mid d S x c s) :
    (if ((order S).idxOf c : ℤ) > (s.nClusters : ℤ) - 1 then CH.incNew x else CH.incOld x ((order S).idxOf c)) s =
      .ok () (withTables d (S ++ [(x, c)]) s) := by
  by_cases hc : c ∈ order S
  · rw [if_neg (by rw [isNew_iff h.nv.k]; simpa using hc), CH.incOld]
    refine get_bind (lift_bind (oldStats_eq hS hx hc h.nv h.cg) ?_)
    have := set_tables hS hx hc h.nv h.cg (fun _ => pure ())
    rwa [bind_pure_unit] at this
  · rw [if_pos (by rw [isNew_iff h.nv.k]; exact hc), CH.incNew]
    refine get_bind ?_
    have := append_tables hx hc h.nv h.cg (fun _ => pure ())
    rwa [bind_pure_unit] at this

theorem CH.sepEntry_eq {S : Samples F} {s : Core F} (hS : S.Dim d) (hne : S ≠ []) (nv : NV d S s)
    (hm : s.mu = Gen.mu S) : mapE (CH.sepEntry s) (List.range s.nClusters) = .ok ((order S).map (separation S)) := by
  rw [nv.k]
  apply mapE_range_keys (order_nodup S)
  intro a ha
  rw [CH.sepEntry, nv.n, get_rep ha, except_bind_ok, nv.v, row_rep ha, except_bind_ok, hm,
    sqDistPy_eq (stat_v_length S ha hS) (mu_length S hne hS)]
  rfl

theorem CH.step (S : Samples F) (s : Core F) (x : List F) (c : ℤ) (hS : S.Dim d) (hx : x.length = d)
    (h : Start init (RepSep d) S s) :
    ∃ s', CH.incBody x ((order S).idxOf c) s = .ok () s' ∧ RepSep d (S ++ [(x, c)]) s' := by
  obtain ⟨hn, s1, h1, hm⟩ := RepSep.start (setupC := CH.setup) c hS hx h
    (by subst hx; refine ⟨_, rfl, mid_first ?_ rfl rfl ?_ rfl ?_ rfl rfl⟩ <;> simp)
  refine ⟨_, get_bind (bind_ok_of h1 (get_bind (bind_ok_of (CH.branch hS hx hm)
    (modify_bind (get_bind (lift_bind (CH.sepEntry_eq (hS.append hx) (by simp) ⟨hm.nv.dim, rfl, rfl, rfl⟩ hm.mu)
      rfl)))))), ?_⟩
  refine ⟨⟨⟨hm.nv.dim, rfl, rfl, rfl⟩, ⟨rfl, rfl⟩, ?_, hm.mu, hm.isSetup⟩, rfl⟩
  simp [hn]

theorem CH.evaluate_eq {S : Samples F} {s : Core F} (h : RepSep d S s) :
    ∃ s', CH.evaluate s = .ok () s' ∧ s'.criterion = value d .CH S ∧ RepSep d S s' := by
  rw [CH.evaluate, bind_apply, get_apply, Res.bind_ok]
  by_cases hk : s.nClusters > 1
  · have hk' : 1 < (order S).length := h.nv.k ▸ hk
    rw [if_pos hk]
    refine ⟨_, lift_bind (a := ⟨false, (order S).map fun c => (stat S c).cp⟩) (by rw [h.cg.cp]; rfl) rfl, ?_, ?_⟩
    · simp [value, Nat.not_le.mpr hk', h.SEP, h.nSamples, h.nv.k]
    · exact h.congr rfl rfl rfl rfl rfl rfl rfl rfl rfl rfl
  · rw [if_neg hk]
    refine ⟨_, rfl, ?_, h.congr rfl rfl rfl rfl rfl rfl rfl rfl rfl rfl⟩
    simp [value, ← h.nv.k, Nat.not_lt.mp hk]

theorem CH.refines : Refines d (CHmod (F := F)) (RepSep d) fun S r => r = value d .CH S where
  concrete := rfl
  step := CH.step
  eval _ _ _ _ h := CH.evaluate_eq h

/-! ## WB -/

theorem WB.branch {S : Samples F} {s : Core F} {x : List F} {c : ℤ} (hS : S.Dim d) (hx : x.length = d)
    (h : Mid d S x c s) :
    (if ((order S).idxOf c : ℤ) > (s.nClusters : ℤ) - 1 then WB.incNew x else WB.incOld x ((order S).idxOf c)) s =
      .ok () (withTables d (S ++ [(x, c)]) s) := by
  by_cases hc : c ∈ order S
  · rw [if_neg (by rw [isNew_iff h.nv.k]; simpa using hc), WB.incOld]
    refine get_bind (lift_bind (oldStats_eq hS hx hc h.nv h.cg) ?_)
    have := set_tables hS hx hc h.nv h.cg (fun _ => pure ())
    rwa [bind_pure_unit] at this
  · rw [if_pos (by rw [isNew_iff h.nv.k]; exact hc), WB.incNew]
    refine get_bind ?_
    have := append_tables hx hc h.nv h.cg (fun _ => pure ())
    rwa [bind_pure_unit] at this

theorem WB.sepEntry_eq {S : Samples F} {s : Core F} (hS : S.Dim d) (hne : S ≠ []) (nv : NV d S s)
    (hm : s.mu = Gen.mu S) : mapE (WB.sepEntry s) (List.range s.nClusters) = .ok ((order S).map (separation S)) := by
  rw [nv.k]
  apply mapE_range_keys (order_nodup S)
  intro a ha
  rw [WB.sepEntry, nv.n, get_rep ha, except_bind_ok, nv.v, row_rep ha, except_bind_ok, hm,
    sqDistPy_eq (stat_v_length S ha hS) (mu_length S hne hS)]
  rfl

theorem WB.step (S : Samples F) (s : Core F) (x : List F) (c : ℤ) (hS : S.Dim d) (hx : x.length = d)
    (h : Start init (RepSep d) S s) :
    ∃ s', WB.incBody x ((order S).idxOf c) s = .ok () s' ∧ RepSep d (S ++ [(x, c)]) s' := by
  obtain ⟨hn, s1, h1, hm⟩ := RepSep.start (setupC := WB.setup) c hS hx h
    (by subst hx; refine ⟨_, rfl, mid_first ?_ rfl rfl ?_ rfl ?_ rfl rfl⟩ <;> simp)
  refine ⟨_, get_bind (bind_ok_of h1 (get_bind (bind_ok_of (WB.branch hS hx hm)
    (modify_bind (get_bind (lift_bind (WB.sepEntry_eq (hS.append hx) (by simp) ⟨hm.nv.dim, rfl, rfl, rfl⟩ hm.mu)
      rfl)))))), ?_⟩
  refine ⟨⟨⟨hm.nv.dim, rfl, rfl, rfl⟩, ⟨rfl, rfl⟩, ?_, hm.mu, hm.isSetup⟩, rfl⟩
  simp [hn]

theorem WB.evaluate_eq {S : Samples F} {s : Core F} (h : RepSep d S s) :
    ∃ s', WB.evaluate s = .ok () s' ∧ s'.criterion = value d .WB S ∧ RepSep d S s' := by
  rw [WB.evaluate, bind_apply, get_apply, Res.bind_ok]
  by_cases hk : s.nClusters > 1
  · have hk' : 1 < (order S).length := h.nv.k ▸ hk
    rw [if_pos hk]
    refine ⟨_, lift_bind (a := ⟨false, (order S).map fun c => (stat S c).cp⟩) (by rw [h.cg.cp]; rfl) rfl, ?_, ?_⟩
    · simp [value, Nat.not_le.mpr hk', h.SEP, h.nv.k]
    · exact h.congr rfl rfl rfl rfl rfl rfl rfl rfl rfl rfl
  · rw [if_neg hk]
    refine ⟨_, rfl, ?_, h.congr rfl rfl rfl rfl rfl rfl rfl rfl rfl rfl⟩
    simp [value, ← h.nv.k, Nat.not_lt.mp hk]

theorem WB.refines : Refines d (WBmod (F := F)) (RepSep d) fun S r => r = value d .WB S where
  concrete := rfl
  step := WB.step
  eval _ _ _ _ h := WB.evaluate_eq h

end Verif.Gen
