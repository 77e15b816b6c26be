import Verif.Proofs.Sim
import Verif.Proofs.Extrema
import Verif.Model.XB

/-! # XB refines its specification -/

namespace Verif.XB
open Spec Py Verif

variable {d : ℕ}

/-- The object after the samples `S`. -/
structure Rep (S : Stream d) (s : Core) : Prop extends RepMu S s where
  D : s.D = sqMat (keys S) fun a b => .fin (sep S a b)

theorem start {S : Stream d} {s : Core} (x : Pt d) (c : ℤ) (h : Start Core.init Rep S s) :
    s.nSamples = S.length ∧ ∃ s', setupOrMu setup (enc x) s = .ok () s' ∧ MidMu S x c s' ∧
      (keys S ≠ [] → s'.D = sqMat (keys S) fun a b => .fin (sep S a b)) := by
  rcases h with ⟨rfl, rfl⟩ | ⟨hne, h⟩
  · refine ⟨rfl, _, rfl, mid_of_init ?_ rfl rfl ?_ rfl ?_ rfl rfl, fun h => absurd rfl h⟩ <;> simp
  · obtain ⟨h1, h2⟩ := mid_of_mu (setupC := setup) hne x c h.toRepMu
    exact ⟨h.nSamples, _, h1, h2, fun _ => h.D⟩

theorem dist_rep {S : Stream d} {s : Core} {b : Bool} {ks : List ℤ} {a : ℤ} (nv : RepNV b ks S s) (w : Pt d)
    (ha : a ∈ ks) : dist s (enc w) (ks.idxOf a) = .ok (.fin (dist2 w (centroid S a))) := by
  simp only [dist, nv.v, row_rep ha, except_bind_ok, sqDist_enc]

theorem branch {S : Stream d} {s : Core} {x : Pt d} {c : ℤ} (h : MidMu S x c s)
    (hD : keys S ≠ [] → s.D = sqMat (keys S) fun a b => .fin (sep S a b)) :
    (if ((keys S).idxOf c : ℤ) > (s.nClusters : ℤ) - 1 then incNew (enc x) ((keys S).idxOf c)
      else incOld (enc x) ((keys S).idxOf c)) s =
      .ok () { tabled false (keys (S ++ [(x, c)])) (S ++ [(x, c)]) s with
        D := sqMat (keys (S ++ [(x, c)])) fun a b => .fin (sep (S ++ [(x, c)]) a b) } := by
  rw [keys_append]
  by_cases hc : c ∈ keys S
  · rw [if_neg (by rw [isNew_iff h.nv.k]; simpa using hc), addKey_old hc, incOld]
    refine get_bind (lift_bind (oldStats_rep x (keysOf_keys S) hc h.nv h.cp h.g) ?_)
    refine lift_bind (a := (keys S).map fun a => if a = c then 0 else
      .fin (dist2 (centroid (S ++ [(x, c)]) c) (centroid S a))) ?_ ?_
    · rw [h.nv.k]
      exact columnOld_keys (keys_nodup S) fun a ha _ => dist_rep h.nv _ ha
    · rw [set_tables (x := x) (keysOf_keys S) hc h.nv h.cp h.g]
      refine setD_rep (keys_nodup S) hc (hD (List.ne_nil_of_mem hc)) ?_ ?_ ?_
      · intro a ha
        by_cases e : a = c
        · subst e; simp [sep, dist2_self, XR.zero_def]
        · simp [e, sep, centroid_append_ne S x e]
      · intro a ha
        by_cases e : a = c
        · subst e; simp [sep, dist2_self, XR.zero_def]
        · simp [e, sep, centroid_append_ne S x e, dist2_comm]
      · intro a _ b _ ha hb
        simp [sep, centroid_append_ne S x ha, centroid_append_ne S x hb]
  · have hcl : c ∉ labels S := fun h => hc (mem_keys.mpr h)
    rw [if_pos (by rw [isNew_iff h.nv.k]; exact hc), addKey_new hc, incNew]
    refine get_bind (lift_bind (a := sqMat (keys S ++ [c]) fun a b => .fin (sep (S ++ [(x, c)]) a b)) ?_ ?_)
    · rw [h.nv.k, List.idxOf_eq_length hc]
      refine distNew_sqMat (keys_nodup S) hc hD ?_ ?_ ?_ ?_
      · intro a ha
        have e : a ≠ c := fun e => hc (e ▸ ha)
        rw [dist_rep h.nv _ ha, sep, centroid_append_new S x hcl, centroid_append_ne S x e]
      · intro a _; rw [sep_comm]
      · simp [sep, dist2_self, XR.zero_def]
      · intro a ha b hb
        have ea : a ≠ c := fun e => hc (e ▸ ha)
        have eb : b ≠ c := fun e => hc (e ▸ hb)
        simp [sep, centroid_append_ne S x ea, centroid_append_ne S x eb]
    · rw [append_tables (x := x) (keysOf_keys S) hc h.nv h.cp h.g]
      rfl

theorem step (S : Stream d) (s : Core) (x : Pt d) (c : ℤ) (h : Start XBmod.init Rep S s) :
    ∃ s', incBody (enc x) ((keys S).idxOf c) s = .ok () s' ∧ Rep (S ++ [(x, c)]) s' := by
  obtain ⟨hn, s1, h1, hm, hD⟩ := start x c h
  refine ⟨_, get_bind (bind_ok_of h1 (get_bind (bind_ok_of (branch hm hD) rfl))), ?_⟩
  refine ⟨⟨⟨hm.nv.dim, rfl, rfl, rfl⟩, rfl, rfl, ?_, hm.mu, hm.isSetup⟩, rfl⟩
  simp [hn]

/-- The value computed from the tables. -/
theorem evaluate_rep {S : Stream d} {s : Core} {b : Bool} {ks : List ℤ} (hks : KeysOf ks S) (nv : RepNV b ks S s)
    (cp : RepCP b ks S s) (hS : s.nSamples = S.length) (hD : Upper ks (fun a b => .fin (sep S a b)) s.D) :
    ∃ w g, evaluate s = .ok () { s with WGSS := w, SEP := g, criterion := Spec.XB S } := by
  rw [evaluate, bind_apply, get_apply, Res.bind_ok]
  have hk := hks.length
  have hk' := hk
  rw [← nv.k] at hk
  by_cases h : s.nClusters > 1
  · refine ⟨.fin (WGSS S), [.fin (sInf (pairValues S (sep S)))], ?_⟩
    rw [if_pos h]
    refine lift_bind (a := ⟨b, ks.map fun c => XR.fin (scatter S c)⟩) (by rw [cp]; rfl) ?_
    have e1 : (ks.map fun c => XR.fin (scatter S c)).sum = .fin (WGSS S) := hks.sumX _
    refine modify_bind (lift_bind (by rw [hD.1]; exact triu_upper hD)
      (lift_bind (amin_upperVals hks (by omega) _ (sep_comm S)) ?_))
    rw [modify_apply, Spec.XB, if_neg (by omega)]
    simp only [e1, XR.fin_mul, hS, ratio_eq (WGSS_nonneg S)]
  · refine ⟨s.WGSS, s.SEP, ?_⟩
    rw [if_neg h, modify_apply, Spec.XB, if_pos (by omega)]

theorem refines : Refines XBmod (Rep (d := d)) Spec.XB where
  concrete := rfl
  step := step
  eval S s _ h := by
    obtain ⟨w, g, e⟩ := evaluate_rep (keysOf_keys S) h.nv h.cp h.nSamples (h.D ▸ upper_sqMat _ _)
    exact ⟨_, e, rfl, ⟨⟨⟨h.nv.dim, h.nv.k, h.nv.n, h.nv.v⟩, h.cp, h.g, h.nSamples, h.mu, h.isSetup⟩, h.D⟩⟩

end Verif.XB
