import Verif.Gen.All
import Verif.Proofs.Keys

/-!
# The model over `XR` is an instance

`mod_XR`: with the arithmetic `XR` the classes of `Verif/Gen` are the classes of `Verif/Model`.
-/

namespace Verif.Gen
open Py

theorem mul_one_XR (x : XR) : x * XR.fin 1 = x := by
  cases x
  · simp
  all_goals (show XR.mul _ _ = _; simp [XR.mul, XR.infOfSign])

theorem mapE_comp {α β γ : Type} (f : α → Except PyErr β) (g : β → γ) (l : List α) :
    mapE (fun a => do let b ← f a; pure (g b)) l = (mapE f l).map (List.map g) := by
  induction l with
  | nil => rfl
  | cons a l ih =>
    simp only [mapE, ih]
    cases f a with
    | error e => rfl
    | ok b =>
      cases mapE f l <;> rfl

theorem ones_XR (v : Vec) : v.map (fun x => x * (Arith.one : XR)) = v := by
  have : (fun x : XR => x * (Arith.one : XR)) = id := funext mul_one_XR
  rw [this, List.map_id]

theorem mean0_XR (a : Arr2) : Arr2.mean0 a = a.mean0 := by
  simp only [Arr2.mean0, Verif.Arr2.mean0]
  apply List.map_congr_left
  intro j _
  show (a.rows.map fun r => r.getD j 0).sum / XR.fin ((a.rows.map fun r => r.getD j 0).length : ℝ) = _
  rw [List.length_map]

theorem batchScatter_XR (a : Arr2) (v : Vec) : batchScatter a v = Verif.batchScatter a v := by
  unfold batchScatter Verif.batchScatter
  rw [ones_XR]
  have h1 := mapE_comp (fun r => Verif.Vec.sub r v) (List.map XR.sq) a.rows
  have h2 := mapE_comp (fun r => Verif.Vec.sub r v) Verif.Vec.sumSq a.rows
  show (mapE (fun r => do let d ← Verif.Vec.sub r v; pure (d.map XR.sq)) a.rows >>= fun ds =>
    pure ((ds.map List.sum).sum)) = (mapE (fun r => do let d ← Verif.Vec.sub r v; pure (Verif.Vec.sumSq d)) a.rows >>= fun ds =>
    pure ds.sum)
  rw [h1, h2]
  cases mapE (fun r => Verif.Vec.sub r v) a.rows with
  | error e => rfl
  | ok ds =>
    show Except.ok _ = Except.ok _
    rw [List.map_map]
    rfl

theorem matmul_XR (a b : Arr2) : Arr2.matmul a b = Verif.Arr2.matmul a b := by
  unfold Arr2.matmul Verif.Arr2.matmul
  split
  · congr 2
    apply List.ext_getElem
    · simp
    · intro i h1 h2
      simp only [List.length_map] at h2
      simp only [List.getElem_map, List.getElem_range]
      apply List.map_congr_left
      intro j _
      show (List.zipWith (· * ·) (a.rows.getD i []) _).sum = _
      simp [h2]
  · rfl

theorem distRow_XR (a : Arr2) (s : Core) (i : ℕ) : CSIL.distRow a s i = Verif.CSIL.distRow a s i := by
  unfold CSIL.distRow Verif.CSIL.distRow
  simp only [ones_XR]
  rfl

theorem amin_XR : Vec.amin (F := XR) = Verif.Vec.amin := by
  funext l
  cases l <;> rfl
theorem amax_XR : Vec.amax (F := XR) = Verif.Vec.amax := by
  funext l
  cases l <;> rfl

theorem XB_evaluate_XR : XB.evaluate (F := XR) = Verif.XB.evaluate := by
  unfold XB.evaluate Verif.XB.evaluate
  simp only [amin_XR]
  rfl
theorem DB_evaluate_XR : DB.evaluate (F := XR) = Verif.DB.evaluate := by
  unfold DB.evaluate Verif.DB.evaluate
  simp only [amax_XR]
  rfl
theorem maxScatter_XR : GD43.maxScatter (F := XR) = Verif.GD43.maxScatter := by
  unfold GD43.maxScatter Verif.GD43.maxScatter
  simp only [amax_XR]
  rfl
theorem minUpper_XR : GD43.minUpper (F := XR) = Verif.GD43.minUpper := by
  unfold GD43.minUpper Verif.GD43.minUpper
  simp only [amin_XR]
theorem GD43_evaluate_XR : GD43.evaluate (F := XR) = Verif.GD43.evaluate := by
  unfold GD43.evaluate Verif.GD43.evaluate
  simp only [maxScatter_XR, minUpper_XR]
  rfl
theorem GD53_evaluate_XR : GD53.evaluate (F := XR) = Verif.GD53.evaluate := by
  unfold GD53.evaluate Verif.GD53.evaluate
  simp only [maxScatter_XR, minUpper_XR]
  rfl
theorem CSIL_coef_XR : CSIL.coef (F := XR) = Verif.CSIL.coef := by
  unfold CSIL.coef Verif.CSIL.coef
  simp only [amin_XR]
  rfl
theorem CSIL_evaluate_XR : CSIL.evaluate (F := XR) = Verif.CSIL.evaluate := by
  unfold CSIL.evaluate Verif.CSIL.evaluate
  simp only [CSIL_coef_XR]
  rfl

theorem CH_batchStep_XR : CH.batchStep (F := XR) = Verif.CH.batchStep := by
  funext data l i
  unfold CH.batchStep Verif.CH.batchStep
  simp only [mean0_XR, batchScatter_XR]
  rfl
theorem CH_paramBatch_XR : CH.paramBatch (F := XR) = Verif.CH.paramBatch := by
  funext data l
  unfold CH.paramBatch Verif.CH.paramBatch
  simp only [mean0_XR, CH_batchStep_XR]

theorem WB_batchStep_XR : WB.batchStep (F := XR) = Verif.WB.batchStep := by
  funext data l i
  unfold WB.batchStep Verif.WB.batchStep
  simp only [mean0_XR, batchScatter_XR]
  rfl
theorem WB_paramBatch_XR : WB.paramBatch (F := XR) = Verif.WB.paramBatch := by
  funext data l
  unfold WB.paramBatch Verif.WB.paramBatch
  simp only [mean0_XR, WB_batchStep_XR]

theorem XB_batchStep_XR : XB.batchStep (F := XR) = Verif.XB.batchStep := by
  funext data l i
  unfold XB.batchStep Verif.XB.batchStep
  simp only [mean0_XR, batchScatter_XR]
theorem XB_paramBatch_XR : XB.paramBatch (F := XR) = Verif.XB.paramBatch := by
  funext data l
  unfold XB.paramBatch Verif.XB.paramBatch
  simp only [mean0_XR, XB_batchStep_XR]
  rfl

theorem DB_batchStep_XR : DB.batchStep (F := XR) = Verif.DB.batchStep := by
  funext data l i
  unfold DB.batchStep Verif.DB.batchStep
  simp only [mean0_XR, batchScatter_XR]
  rfl
theorem DB_paramBatch_XR : DB.paramBatch (F := XR) = Verif.DB.paramBatch := by
  funext data l
  unfold DB.paramBatch Verif.DB.paramBatch
  simp only [mean0_XR, DB_batchStep_XR]
  rfl

theorem GD43_batchStep_XR : GD43.batchStep (F := XR) = Verif.GD43.batchStep := by
  funext data l i
  unfold GD43.batchStep Verif.GD43.batchStep
  simp only [mean0_XR, batchScatter_XR]
theorem GD43_paramBatch_XR : GD43.paramBatch (F := XR) = Verif.GD43.paramBatch := by
  funext data l
  unfold GD43.paramBatch Verif.GD43.paramBatch
  simp only [mean0_XR, GD43_batchStep_XR]
  rfl

theorem GD53_batchStep_XR : GD53.batchStep (F := XR) = Verif.GD53.batchStep := by
  funext data l i
  unfold GD53.batchStep Verif.GD53.batchStep
  simp only [mean0_XR, batchScatter_XR]
theorem GD53_paramBatch_XR : GD53.paramBatch (F := XR) = Verif.GD53.paramBatch := by
  funext data l
  unfold GD53.paramBatch Verif.GD53.paramBatch
  simp only [mean0_XR, GD53_batchStep_XR]
  rfl

theorem PS_batchStep_XR : PS.batchStep (F := XR) = Verif.PS.batchStep := by
  funext data l i
  unfold PS.batchStep Verif.PS.batchStep
  simp only [mean0_XR]
theorem PS_paramBatch_XR : PS.paramBatch (F := XR) = Verif.PS.paramBatch := by
  funext data l
  unfold PS.paramBatch Verif.PS.paramBatch
  simp only [mean0_XR, PS_batchStep_XR]
  rfl
theorem devSq_XR (s : Core) : PS.devSq s = Verif.PS.devSq s := rfl
theorem psTerm_XR (s : Core) (n : ℕ) : PS.psTerm s n = Verif.PS.psTerm s n := by
  funext i
  unfold PS.psTerm Verif.PS.psTerm
  rw [amin_XR]
  rfl
theorem PS_evaluate_XR : PS.evaluate (F := XR) = Verif.PS.evaluate := by
  unfold PS.evaluate Verif.PS.evaluate
  simp only [mean0_XR, devSq_XR, psTerm_XR]
  rfl

theorem CSIL_batchStep_XR : CSIL.batchStep (F := XR) = Verif.CSIL.batchStep := by
  funext data l i
  unfold CSIL.batchStep Verif.CSIL.batchStep
  simp only [mean0_XR, batchScatter_XR]
theorem batchEntry_XR (data : Arr2) (l : List ℤ) (s : Core) (j i : ℕ) :
    CSIL.batchEntry data l s j i = Verif.CSIL.batchEntry data l s j i := by
  unfold CSIL.batchEntry Verif.CSIL.batchEntry
  rw [distRow_XR]
  congr 1
  funext d
  congr 1
  · congr 1
    funext t
    cases d[t]? <;> rfl
theorem CSIL_paramBatch_XR : CSIL.paramBatch (F := XR) = Verif.CSIL.paramBatch := by
  funext data l
  unfold CSIL.paramBatch Verif.CSIL.paramBatch
  simp only [CSIL_batchStep_XR, batchEntry_XR]

theorem RCIP_batchStep_XR : RCIP.batchStep (F := XR) = Verif.RCIP.batchStep := by
  funext data l i
  unfold RCIP.batchStep Verif.RCIP.batchStep RCIP.batchSigma Verif.RCIP.batchSigma
  simp only [mean0_XR, matmul_XR]
  rfl

theorem deltaTerm_XR (n : ℕ) : RCIP.deltaTerm (F := XR) n = Verif.RCIP.deltaTerm n := rfl

theorem RCIP_paramBatch_XR : RCIP.paramBatch (F := XR) = Verif.RCIP.paramBatch := by
  funext data l s
  unfold RCIP.paramBatch Verif.RCIP.paramBatch
  simp only [RCIP_batchStep_XR, deltaTerm_XR]
  simp only [Base.setupBatch, bind_apply, modify_apply, Res.bind_ok]
  cases Verif.RCIP.deltaTerm data.cols <;> rfl

/-- **Link.** The model over `XR` is the instance of the arithmetic-independent model. -/
theorem mod_XR : mod XR = Index.mod := by
  funext I
  cases I
  · simp only [mod, Index.mod, CHmod, Verif.CHmod, CH_paramBatch_XR]; rfl
  · simp only [mod, Index.mod, WBmod, Verif.WBmod, WB_paramBatch_XR]; rfl
  · simp only [mod, Index.mod, XBmod, Verif.XBmod, XB_paramBatch_XR, XB_evaluate_XR]; rfl
  · simp only [mod, Index.mod, DBmod, Verif.DBmod, DB_paramBatch_XR, DB_evaluate_XR]; rfl
  · simp only [mod, Index.mod, GD43mod, Verif.GD43mod, GD43_paramBatch_XR, GD43_evaluate_XR]; rfl
  · simp only [mod, Index.mod, GD53mod, Verif.GD53mod, GD53_paramBatch_XR, GD53_evaluate_XR]; rfl
  · simp only [mod, Index.mod, PSmod, Verif.PSmod, PS_paramBatch_XR, PS_evaluate_XR]; rfl
  · simp only [mod, Index.mod, RCIPmod, Verif.RCIPmod, RCIP_paramBatch_XR]; rfl
  · simp only [mod, Index.mod, CSILmod, Verif.CSILmod, CSIL_paramBatch_XR, CSIL_evaluate_XR]; rfl

end Verif.Gen
