import Verif.Proofs.NaN1
import Verif.Proofs.NaN2
import Verif.Proofs.NaN3
import Verif.Proofs.NaN4
import Verif.Proofs.Run
import Verif.Props.Session
import Verif.SpecMissing

/-! # Streams with missing values and their completions -/

namespace Verif
open Py Spec

variable {d : ℕ}

/-- Objects: the same label map, attributes related. -/
def ObjRef (o o' : Obj) : Prop := o.labelMap = o'.labelMap ∧ CoreRef o.core o'.core

section
variable {M : Module} {P : Core → Prop} {o o' o1 : Obj} {r : XR}

theorem evaluate_obj_ref (hM : ModRef M P) (h : ObjRef o o') {u : Unit} (e : onCore M.evaluate o = .ok u o1) (hP : P o1.core) :
    ∃ o1', onCore M.evaluate o' = .ok () o1' ∧ ObjRef o1 o1' := by
  rw [onCore] at e ⊢
  cases hs : M.evaluate o.core with
  | err ex s => rw [hs] at e; simp [Res.mapState] at e
  | ok u s =>
    rw [hs] at e
    simp only [Res.mapState, Res.ok.injEq] at e
    obtain ⟨_, rfl⟩ := e
    obtain ⟨t, ht, hr⟩ := hM.evaluate _ _ h.2 s (by rw [hs]) hP
    rw [ht]
    exact ⟨_, rfl, h.1, hr⟩

theorem onCore_ref {x y : Py Core Unit} (hxy : x ⊑ y) (h : ObjRef o o') {u : Unit} (e : onCore x o = .ok u o1) :
    ∃ o1', onCore y o' = .ok () o1' ∧ ObjRef o1 o1' := by
  rw [onCore] at e ⊢
  cases hs : x o.core with
  | err ex s => rw [hs] at e; simp [Res.mapState] at e
  | ok u s =>
    rw [hs] at e
    simp only [Res.mapState, Res.ok.injEq] at e
    obtain ⟨_, rfl⟩ := e
    obtain ⟨t, ht, hr⟩ := of_ref hxy h.2 hs
    rw [ht]
    exact ⟨_, rfl, h.1, hr⟩

/-- Arguments of `get_cvi`. -/
inductive DataRef : Data → Data → Prop
  | d1 {x x' : Vec} : x ⊑ x' → DataRef (.d1 x) (.d1 x')
  | d2 {a a' : Arr2} : a ⊑ a' → DataRef (.d2 a) (.d2 a')

theorem update_ref (hM : ModRef M P) {D D' : Data} (hD : DataRef D D') {lab : LabelArg} (h : ObjRef o o') {u : Unit}
    (e : M.update D lab o = .ok u o1) : ∃ o1', M.update D' lab o' = .ok () o1' ∧ ObjRef o1 o1' := by
  cases hD with
  | d1 hx =>
    simp only [Module.update, Module.paramInc] at e ⊢
    split at e
    · cases e
    · cases lab with
      | arr l => cases e
      | int c =>
        simp only at e ⊢
        rw [if_neg (by assumption), ← h.1]
        exact onCore_ref (o := { o with labelMap := _ }) (hM.inc _ _ _ hx) ⟨rfl, h.2⟩ e
  | d2 hA =>
    simp only [Module.update] at e ⊢
    rw [← h.2.isSetup]
    split at e
    · split at e
      · cases e
      · split at e
        · cases e
        · rw [if_pos (by assumption), if_neg (by assumption), if_neg (by assumption)]
          exact onCore_ref (hM.batch _ _ _ hA) h e
    · cases e

theorem getCvi_ref (hM : ModRef M P) {D D' : Data} (hD : DataRef D D') {lab : LabelArg} (h : ObjRef o o')
    (e : getCvi M D lab o = .ok r o1) (hP : P o1.core) : ∃ r' o1', getCvi M D' lab o' = .ok r' o1' ∧ r ⊑ r' ∧ ObjRef o1 o1' := by
  rw [getCvi] at e ⊢
  rw [bind_apply] at e ⊢
  cases hu : M.update D lab o with
  | err ex s => rw [hu] at e; cases e
  | ok u o2 =>
    rw [hu] at e
    obtain ⟨o2', hu', h2⟩ := update_ref hM hD h hu
    rw [hu']
    simp only [Res.bind_ok, bind_apply] at e ⊢
    cases he : onCore M.evaluate o2 with
    | err ex s => rw [he] at e; cases e
    | ok u o3 =>
      rw [he] at e
      simp only [Res.bind_ok, get_apply, pure_apply, Res.ok.injEq] at e
      obtain ⟨rfl, rfl⟩ := e
      obtain ⟨o3', he', h3⟩ := evaluate_obj_ref hM h2 he hP
      rw [he']
      exact ⟨_, _, rfl, h3.2.criterion, h3⟩

end

/-- Where the evaluation of the class respects `⊑`. -/
def Index.Good : Index → Core → Prop
  | .cSIL => CSIL.Square
  | _ => fun _ => True

theorem Index.modRef : (I : Index) → ModRef I.mod I.Good
  | .CH => CHmod_ref
  | .WB => WBmod_ref
  | .XB => XBmod_ref
  | .DB => DBmod_ref
  | .GD43 => GD43mod_ref
  | .GD53 => GD53mod_ref
  | .PS => PSmod_ref
  | .rCIP => RCIPmod_ref
  | .cSIL => CSILmod_ref

theorem objAfter_good {I : Index} (hd : DimOk I d) (S : Stream d) : I.Good (objAfter I S).core := by
  cases I
  case cSIL =>
    rcases objAfter_inv hd S with ⟨rfl, h⟩ | ⟨_, hm, hr⟩
    · rw [h]
      exact ⟨rfl, rfl, by intro r hr; cases hr⟩
    · change CSIL.Square _
      have h : CSIL.Rep S _ := hr
      rw [CSIL.Square, h.Sm, h.tables.nv.k]
      simp [sqMat]
  all_goals trivial

theorem encG_ref {x : Pt d} {y : Gappy d} (h : Fills x y) : enc x ⊑ encG y := by
  change List.Forall₂ _ _ _
  rw [enc, encG, List.forall₂_iff_get]
  refine ⟨by simp, fun i h1 h2 => ?_⟩
  simp only [List.get_eq_getElem, List.getElem_ofFn]
  generalize hj : (⟨i, _⟩ : Fin d) = j
  cases hy : y j with
  | none => exact .inl rfl
  | some r => rw [h j r hy]; exact .inr rfl

/-- The stream with gaps goes through alongside any completion. -/
theorem feedG {I : Index} (hd : DimOk I d) {S : Stream d} {T : GappyStream d} (h : Completes S T) {P : Stream d} {o' : Obj}
    (ho : ObjRef (objAfter I P) o') : ∃ rs o1', feed I.mod (encSG T) o' = .ok rs o1' ∧
      ((S.inits.tail.map fun Q => I.actual (P ++ Q)) ⊑ rs) ∧ ObjRef (objAfter I (P ++ S)) o1' := by
  induction h generalizing P o' with
  | nil => exact ⟨[], o', rfl, .nil, by simpa using ho⟩
  | @cons p q S T hpq _ ih =>
    obtain ⟨x, c⟩ := p
    obtain ⟨y, c'⟩ := q
    obtain ⟨hf, rfl⟩ := hpq
    obtain ⟨r, o1, h1, h2, h3⟩ := getCvi_ref (M := I.mod) I.modRef (.d1 (encG_ref hf)) ho (getCvi_objAfter hd P x c)
      (objAfter_good hd _)
    obtain ⟨rs, o2, e1, e2, e3⟩ := ih h3
    refine ⟨r :: rs, o2, ?_, ?_, by simpa using e3⟩
    · simp only [encSG, List.map_cons, feed, bind_apply] at e1 ⊢
      rw [h1, Res.bind_ok, e1]
      rfl
    · have := congrArg (List.map I.actual) (inits_tail_snoc P (x, c) S)
      simp only [List.map_map, List.map_cons, Function.comp_def] at this
      rw [this]
      exact .cons h2 e2

theorem objRef_refl (o : Obj) : ObjRef o o := ⟨rfl, core_refl _⟩

theorem incRunG_ref {I : Index} (hd : DimOk I d) {S : Stream d} {T : GappyStream d} (h : Completes S T) :
    ∃ rs o', feed I.mod (encSG T) I.mod.fresh = .ok rs o' ∧ (S.inits.tail.map I.actual ⊑ rs) ∧ ObjRef (objAfter I S) o' := by
  obtain ⟨rs, o', h1, h2, h3⟩ := feedG hd h (P := []) (objRef_refl (objAfter I []))
  exact ⟨rs, o', h1, by simpa using h2, by simpa using h3⟩

theorem rowsG_ref {S : Stream d} {T : GappyStream d} (h : Completes S T) :
    encRows (S.map Prod.fst) ⊑ encRowsG (T.map Prod.fst) ∧ S.map Prod.snd = T.map Prod.snd := by
  induction h with
  | nil => exact ⟨⟨rfl, .nil⟩, rfl⟩
  | cons hpq _ ih => exact ⟨⟨rfl, .cons (encG_ref hpq.1) ih.1.2⟩, by rw [List.map_cons, List.map_cons, hpq.2, ih.2]⟩

theorem batch_good {I : Index} {A : Arr2} {lab : LabelArg} {o o' : Obj} {r : XR}
    (e : getCvi I.mod (.d2 A) lab o = .ok r o') : I.Good o'.core := by
  cases I
  case cSIL =>
    rw [getCvi, bind_apply] at e
    cases hu : Index.cSIL.mod.update (.d2 A) lab o with
    | err ex s => rw [hu] at e; cases e
    | ok u o2 =>
      rw [hu] at e
      simp only [Res.bind_ok, bind_apply] at e
      cases he : onCore Index.cSIL.mod.evaluate o2 with
      | err ex s => rw [he] at e; cases e
      | ok u o3 =>
        rw [he] at e
        simp only [Res.bind_ok, get_apply, pure_apply, Res.ok.injEq] at e
        obtain ⟨rfl, rfl⟩ := e
        have hsq : CSIL.Square o2.core := by
          simp only [Module.update] at hu
          split at hu
          · split at hu
            · cases hu
            · split at hu
              · cases hu
              · rw [onCore] at hu
                cases hs : Index.cSIL.mod.paramBatch A lab.toList o.core with
                | err ex s => rw [hs] at hu; cases hu
                | ok u s =>
                  rw [hs] at hu
                  simp only [Res.mapState, Res.ok.injEq] at hu
                  obtain ⟨_, rfl⟩ := hu
                  exact CSIL.paramBatch_square hs
          · cases hu
        rw [onCore] at he
        cases hs : Index.cSIL.mod.evaluate o2.core with
        | err ex s => rw [hs] at he; cases he
        | ok u s =>
          rw [hs] at he
          simp only [Res.mapState, Res.ok.injEq] at he
          obtain ⟨_, rfl⟩ := he
          exact CSIL.evaluate_square hs hsq
  all_goals trivial

theorem batchRunG_ref {I : Index} {S : Stream d} {T : GappyStream d} (h : Completes S T) {v : XR} (e : batchRun I S = .ok v) :
    ∃ r, batchRunG I T = .ok r ∧ v ⊑ r := by
  rw [batchRun] at e
  obtain ⟨hA, hl⟩ := rowsG_ref h
  cases hg : getCvi I.mod (.d2 (encRows (S.map Prod.fst))) (.arr (S.map Prod.snd)) I.mod.fresh with
  | err ex s => rw [hg] at e; cases e
  | ok v' o' =>
    rw [hg] at e
    cases e
    obtain ⟨r, o1, h1, h2, _⟩ := getCvi_ref (M := I.mod) I.modRef (.d2 hA) (objRef_refl _) hg (batch_good hg)
    refine ⟨r, ?_, h2⟩
    rw [batchRunG, ← hl, h1]
    rfl

end Verif
