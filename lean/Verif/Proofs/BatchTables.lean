import Verif.Proofs.Keeps
import Verif.Proofs.BatchRCIP
import Verif.Proofs.BatchCSIL
import Verif.Api

/-!
# The tables of an object after a batch call
-/

namespace Verif
open Spec Py

variable {d : ℕ}

/-- The attributes that `_evaluate` does not assign. -/
structure Tables where
  isSetup : Bool
  dim : ℕ
  nSamples : ℕ
  nClusters : ℕ
  n : Seq ℕ
  v : Arr2
  CP : Option (Seq XR)
  sigma : List Arr2
  mu : Vec

/-- Read them off. -/
def Core.tables (s : Core) : Tables :=
  ⟨s.isSetup, s.dim, s.nSamples, s.nClusters, s.n, s.v, s.CP, s.sigma, s.mu⟩

/-- `_evaluate` assigns to none of these, whether it returns or raises. -/
theorem keeps_tables (I : Index) (t : Tables) : Keeps (fun s => s.tables = t) I.mod.evaluate := by
  cases I
  · show Keeps _ CH.evaluate; unfold CH.evaluate; keeps_set
  · show Keeps _ WB.evaluate; unfold WB.evaluate; keeps_set
  · show Keeps _ XB.evaluate; unfold XB.evaluate; keeps_set
  · show Keeps _ DB.evaluate; unfold DB.evaluate; keeps_set
  · show Keeps _ GD43.evaluate; unfold GD43.evaluate; keeps_set
  · show Keeps _ GD53.evaluate; unfold GD53.evaluate; keeps_set
  · show Keeps _ PS.evaluate; unfold PS.evaluate; keeps_set
  · show Keeps _ RCIP.evaluate; unfold RCIP.evaluate; keeps_set
  · show Keeps _ CSIL.evaluate; unfold CSIL.evaluate; keeps_set

/-- What `_param_batch` leaves in the tables, for every label vector. -/
theorem paramBatch_tables (I : Index) (hd : 0 < d) (S : Stream d) (s : Core) :
    ∃ s1, I.mod.paramBatch (encRows (S.map Prod.fst)) (S.map Prod.snd) s = .ok () s1 ∧
      s1.isSetup = true ∧ s1.dim = d ∧ s1.nSamples = S.length ∧ s1.nClusters = numClusters S ∧
      s1.n.items = (rangeKeys (numClusters S)).map (size S) ∧ s1.v = ⟨d, (rangeKeys (numClusters S)).map (vRow S)⟩ ∧
      (I ≠ .PS → I ≠ .rCIP → ∃ b, s1.CP = some ⟨b, (rangeKeys (numClusters S)).map fun c => XR.fin (scatter S c)⟩) ∧
      (I = .rCIP → s1.sigma = (rangeKeys (numClusters S)).map fun c => Arr2.ofMatrix (regCov S c)) ∧
      (I ≠ .rCIP → I ≠ .cSIL → s1.mu = (encRows (S.map Prod.fst)).mean0) := by
  have e : S.map Prod.fst = S.map Prod.fst ++ [] := (List.append_nil _).symm
  rw [e]
  have hn := mix_full (numClusters S) (size S) 0
  have hv := mix_full (numClusters S) (vRow S) (Vec.zeros d)
  have hc := mix_full (numClusters S) (fun c => XR.fin (scatter S c)) 0
  have hs := mix_full (numClusters S) (fun c => Arr2.ofMatrix (regCov S c)) (Arr2.zeros d d)
  have hv' := congrArg (Arr2.mk d) hv
  cases I
  · exact ⟨_, CH.paramBatch_eq S [] s, rfl, rfl, rfl, rfl, hn, hv', fun _ _ => ⟨true, by rw [← hc]; rfl⟩, nofun, fun _ _ => rfl⟩
  · exact ⟨_, WB.paramBatch_eq S [] s, rfl, rfl, rfl, rfl, hn, hv', fun _ _ => ⟨true, by rw [← hc]; rfl⟩, nofun, fun _ _ => rfl⟩
  · obtain ⟨U, _, h⟩ := XB.paramBatch_eq S [] s
    exact ⟨_, h, rfl, rfl, rfl, rfl, hn, hv', fun _ _ => ⟨true, by rw [← hc]; rfl⟩, nofun, fun _ _ => rfl⟩
  · exact ⟨_, DB.paramBatch_eq S [] s, rfl, rfl, rfl, rfl, hn, hv', fun _ _ => ⟨false, by rw [← hc]; rfl⟩, nofun, fun _ _ => rfl⟩
  · exact ⟨_, GD43.paramBatch_eq S [] s, rfl, rfl, rfl, rfl, hn, hv', fun _ _ => ⟨false, by rw [← hc]; rfl⟩, nofun, fun _ _ => rfl⟩
  · exact ⟨_, GD53.paramBatch_eq S [] s, rfl, rfl, rfl, rfl, hn, hv', fun _ _ => ⟨false, by rw [← hc]; rfl⟩, nofun, fun _ _ => rfl⟩
  · exact ⟨_, PS.paramBatch_eq S [] s, rfl, rfl, rfl, rfl, hn, hv', fun h => absurd rfl h, nofun, fun _ _ => rfl⟩
  · exact ⟨_, RCIP.paramBatch_eq hd S [] s, rfl, rfl, rfl, rfl, hn, hv', fun _ h => absurd rfl h, fun _ => hs, fun h => absurd rfl h⟩
  · exact ⟨_, CSIL.paramBatch_eq S [] s, rfl, rfl, rfl, rfl, hn, hv', fun _ _ => ⟨true, by rw [← hc]; rfl⟩, nofun,
      fun _ h => absurd rfl h⟩

/-- The object left by a batch call on a fresh object. -/
noncomputable def batchAfter (I : Index) (S : Stream d) : Obj :=
  (getCvi I.mod (.d2 (encRows (S.map Prod.fst))) (.arr (S.map Prod.snd)) I.mod.fresh).state

theorem batchAfter_tables (I : Index) (S : Stream d) (hk : 2 ≤ numClusters S) {s1 : Core}
    (h1 : I.mod.paramBatch (encRows (S.map Prod.fst)) (S.map Prod.snd) I.mod.fresh.core = .ok () s1) :
    (batchAfter I S).labelMap = [] ∧ (batchAfter I S).core.tables = s1.tables := by
  have hu : ((S.map Prod.snd).dedup).length > 1 := by
    have := uniqueSize_eq S
    rw [uniqueSize] at this
    omega
  have hM : I.mod.abstract = false := by cases I <;> rfl
  have ho : I.mod.fresh.core.isSetup = false := by cases I <;> rfl
  have hl : I.mod.fresh.labelMap = [] := by cases I <;> rfl
  have hk := keeps_tables I s1.tables s1 rfl
  cases h2 : I.mod.evaluate s1 with
  | ok u s2 =>
    rw [h2] at hk
    have : batchAfter I S = { I.mod.fresh with core := s2 } := by
      simp [batchAfter, getCvi, Module.update, ho, hM, LabelArg.numUnique, LabelArg.toList, hu, onCore, h1, h2, Res.mapState,
        Res.state]
    rw [this]; exact ⟨hl, hk⟩
  | err x s2 =>
    rw [h2] at hk
    have : batchAfter I S = { I.mod.fresh with core := s2 } := by
      simp [batchAfter, getCvi, Module.update, ho, hM, LabelArg.numUnique, LabelArg.toList, hu, onCore, h1, h2, Res.mapState,
        Res.state]
    rw [this]; exact ⟨hl, hk⟩

end Verif
