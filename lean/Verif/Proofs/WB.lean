import Verif.Proofs.Sim
import Verif.Model.WB

/-! # WB refines its specification -/

namespace Verif.WB
open Spec Py Verif

variable {d : ℕ}

/-- The object after the samples `S`. -/
structure Rep (S : Stream d) (s : Core) : Prop extends RepMu S s where
  sep : s.SEP = (keys S).map fun c => XR.fin (size S c * dist2 (centroid S c) (mean S))

theorem start {S : Stream d} {s : Core} (x : Pt d) (c : ℤ) (h : Start Core.init Rep S s) :
    s.nSamples = S.length ∧ ∃ s', setupOrMu setup (enc x) s = .ok () s' ∧ MidMu S x c s' := by
  rcases h with ⟨rfl, rfl⟩ | ⟨hne, h⟩
  · refine ⟨rfl, _, rfl, mid_of_init ?_ rfl rfl ?_ rfl ?_ rfl rfl⟩ <;> simp
  · obtain ⟨h1, h2⟩ := mid_of_mu (setupC := setup) hne x c h.toRepMu
    exact ⟨h.nSamples, _, h1, h2⟩

theorem branch {S : Stream d} {s : Core} {x : Pt d} {c : ℤ} (h : MidMu S x c s) :
    (if ((keys S).idxOf c : ℤ) > (s.nClusters : ℤ) - 1 then incNew (enc x) else incOld (enc x) ((keys S).idxOf c)) s =
      .ok () (tabled false (keys (S ++ [(x, c)])) (S ++ [(x, c)]) s) := by
  rw [keys_append]
  by_cases hc : c ∈ keys S
  · rw [if_neg (by rw [isNew_iff h.nv.k]; simpa using hc), addKey_old hc, incOld]
    refine get_bind (lift_bind (oldStats_rep x (keysOf_keys S) hc h.nv h.cp h.g) ?_)
    have := set_tables (x := x) (keysOf_keys S) hc h.nv h.cp h.g (fun _ => pure ())
    rwa [bind_pure_unit] at this
  · rw [if_pos (by rw [isNew_iff h.nv.k]; exact hc), addKey_new hc, incNew]
    refine get_bind ?_
    have := append_tables (x := x) (keysOf_keys S) hc h.nv h.cp h.g (fun _ => pure ())
    rwa [bind_pure_unit] at this

theorem finish_rep {S : Stream d} {s : Core} {b : Bool} {ks : List ℤ} (hks : KeysOf ks S) (nv : RepNV b ks S s)
    (mu : s.mu = enc (mean S)) (m : ℕ) :
    finish m s = .ok () { s with
      nSamples := m
      SEP := ks.map fun c => XR.fin (size S c * dist2 (centroid S c) (mean S)) } := by
  rw [finish]
  refine modify_bind (get_bind (lift_bind (a := ks.map fun c => XR.fin (size S c * dist2 (centroid S c) (mean S))) ?_ rfl))
  simp only [nv.k]
  apply mapE_range_keys hks.nodup
  intro c hc
  simp only [sepEntry, nv.n, nv.v, mu, get_rep hc, row_rep hc, except_bind_ok, sqDist_enc, except_pure, XR.fin_mul]

theorem step (S : Stream d) (s : Core) (x : Pt d) (c : ℤ) (h : Start WBmod.init Rep S s) :
    ∃ s', incBody (enc x) ((keys S).idxOf c) s = .ok () s' ∧ Rep (S ++ [(x, c)]) s' := by
  obtain ⟨hn, s1, h1, hm⟩ := start x c h
  have hk := keysOf_keys (S ++ [(x, c)])
  refine ⟨_, get_bind (bind_ok_of h1 (get_bind (bind_ok_of (branch hm)
    (finish_rep hk (tabled_nv hm.nv.dim) hm.mu _)))), ?_⟩
  refine ⟨⟨⟨hm.nv.dim, rfl, rfl, rfl⟩, rfl, rfl, ?_, hm.mu, hm.isSetup⟩, rfl⟩
  simp [hn]

/-- The value computed from the tables. -/
theorem evaluate_rep {S : Stream d} {s : Core} {b : Bool} {ks : List ℤ} (hks : KeysOf ks S) (nv : RepNV b ks S s)
    (cp : RepCP b ks S s)
    (hsep : s.SEP = ks.map fun c => XR.fin (size S c * dist2 (centroid S c) (mean S))) :
    ∃ w g, evaluate s = .ok () { s with WGSS := w, BGSS := g, criterion := Spec.WB S } := by
  rw [evaluate, bind_apply, get_apply, Res.bind_ok]
  have hk := hks.length
  rw [← nv.k] at hk
  by_cases h : s.nClusters > 1
  · refine ⟨.fin (WGSS S), .fin (BGSS S), ?_⟩
    have hcr : (XR.fin (WGSS S) / XR.fin (BGSS S)) * .fin (s.nClusters : ℝ) = Spec.WB S := by
      rw [Spec.WB, if_neg (by omega), hk]
      by_cases hb : BGSS S = 0
      · rw [if_neg (by simpa using hb), hb, XR.fin_div, XR.idiv, if_pos rfl, XR.infOfSign]
        by_cases hw : WGSS S = 0
        · simp [hw]
        · have hw' : 0 < WGSS S := lt_of_le_of_ne (WGSS_nonneg S) (Ne.symm hw)
          have hkr : (0 : ℝ) < (numClusters S : ℝ) := by
            have : 0 < numClusters S := by omega
            exact_mod_cast this
          rw [if_pos hw', if_pos hw]
          show XR.infOfSign _ = _
          rw [XR.infOfSign, if_pos hkr]
      · rw [if_pos hb, XR.fin_div_of_ne _ hb, XR.fin_mul]
    rw [if_pos h]
    refine lift_bind (a := ⟨b, ks.map fun c => XR.fin (scatter S c)⟩) (by rw [cp]; rfl) ?_
    have e1 : (ks.map fun c => XR.fin (scatter S c)).sum = .fin (WGSS S) := hks.sumX _
    have e2 : s.SEP.sum = .fin (BGSS S) := by rw [hsep]; exact hks.sumX _
    simp only [e1, e2, modify_apply, hcr]
  · refine ⟨s.WGSS, .fin 0, ?_⟩
    rw [if_neg h, modify_apply, Spec.WB, if_pos (by omega)]

theorem refines : Refines WBmod (Rep (d := d)) Spec.WB where
  concrete := rfl
  step := step
  eval S s _ h := by
    obtain ⟨w, g, e⟩ := evaluate_rep (keysOf_keys S) h.nv h.cp h.sep
    exact ⟨_, e, rfl, ⟨⟨⟨h.nv.dim, h.nv.k, h.nv.n, h.nv.v⟩, h.cp, h.g, h.nSamples, h.mu, h.isSetup⟩, h.sep⟩⟩

end Verif.WB
