import Verif.Old.Sim

/-! # The text of `iDB` does what `Verif/Compat/V0.lean` says -/

set_option linter.unusedSectionVars false
set_option linter.constructorNameAsVariable false
set_option linter.unusedSimpArgs false

namespace Verif.Old
open V0

/-- The attributes of an `iDB` object, with the kinds of their numbers. -/
structure DBo where
  R : List Nm
  S : List Nm
  M : Arr2
  p : Nm
  q : Nm
  output : Nm
  N : ℕ
  centers : List Vec
  sizes : List ℕ
  g : Option Vec
  CP : List Nm

namespace DBo

/-- The object of the model. -/
noncomputable def abs (o : DBo) : V0.DB where
  R := o.R.map Nm.val
  S := o.S.map Nm.val
  M := o.M
  output := o.output.val
  N := o.N
  centers := o.centers
  sizes := o.sizes
  g := o.g
  CP := o.CP.map Nm.val

/-- Read an attribute. -/
def get (a : Attr) (o : DBo) : Except PyErr PV :=
  match a with
  | .R => .ok (.list (o.R.map .num))
  | .S => .ok (.list (o.S.map .num))
  | .M => .ok (.mat o.M)
  | .p => .ok (.num o.p)
  | .q => .ok (.num o.q)
  | .output => .ok (.num o.output)
  | .N => .ok (.num (.int false o.N))
  | .cluster_centers => .ok (.list (o.centers.map .vec))
  | .cluster_sizes => .ok (.list (o.sizes.map natV))
  | .g => .ok (gArg o.g)
  | .CP => .ok (.list (o.CP.map .num))
  | _ => .error .attributeError

/-- Assign an attribute. -/
def set (a : Attr) (v : PV) (o : DBo) : Except PyErr DBo :=
  match a with
  | .R => setNums v fun l => { o with R := l }
  | .S => setNums v fun l => { o with S := l }
  | .M => setMat v fun m => { o with M := m }
  | .p => setNum v fun n => { o with p := n }
  | .q => setNum v fun n => { o with q := n }
  | .output => setNum v fun n => { o with output := n }
  | .N => setNat v fun n => { o with N := n }
  | .cluster_centers => setVecs v fun l => { o with centers := l }
  | .cluster_sizes => setNats v fun l => { o with sizes := l }
  | .g => setOpt v fun w => { o with g := w }
  | .CP => setNums v fun l => { o with CP := l }
  | _ => stuck

/-- What holds of every object: one center per size, and `CP` is empty. -/
structure Good (o : DBo) : Prop where
  cs : o.centers.length = o.sizes.length
  cp : o.CP = []

/-- The object as the interpreter sees it. -/
noncomputable def host : Host DBo := stdHost get set

/-- `iDB()` -/
noncomputable def runInit : Py DBo PV := callMethod host iDB.init [] []

/-- `o.update(x, c)` -/
noncomputable def run (x : Vec) (c : ℤ) : Py DBo PV := callMethod host iDB.update [.vec x, .int c] []

/-- A returned number, and the object. -/
def Rel (v : PV) (o : DBo) (y : Option XR) (s : V0.DB) : Prop := (∃ n : Nm, v = .num n ∧ some n.val = y) ∧ o.abs = s ∧ o.Good

/-- After a call that raised. -/
def Exc (o : DBo) (s : V0.DB) : Prop := o.abs = s ∧ o.Good

section
attribute [local congr] andThen_head bind_head ebind_head cond_head

@[local oldrun] theorem host_eq : host = stdHost get set := rfl
attribute [local oldrun] get set

theorem init_eq (o : DBo) : ∃ o', runInit o = .ok .none o' ∧ o'.abs = V0.DB.init ∧ o'.Good := by
  refine ⟨⟨[], [], Arr2.zeros 0 0, .int false 1, .int false 1, .int false 0, 0, [], [], Option.none, []⟩, ?_, ?_, ?_⟩
  · simp -implicitDefEqProofs only [runInit, callMethod, iDB.init, oldrun]
  · simp only [abs, V0.DB.init, Nm.val, Int.cast_zero, List.map_nil]; rfl
  · exact ⟨rfl, rfl⟩

theorem run_sim (x : Vec) (c : ℤ) (o : DBo) (h : o.Good) : SimS Rel Exc (run x c o) (V0.DB.update x c o.abs) := by
  have hcp : o.CP = [] := h.cp
  by_cases hc : c = o.centers.length
  · simp -implicitDefEqProofs only [run, callMethod, iDB.update, V0.DB.update, oldrun, hc, decide_true, abs]
    refine ⟨⟨_, rfl, rfl⟩, ?_, ⟨by simp [h.cs], h.cp⟩⟩
    simp only [abs, List.map_append, List.map_cons, List.map_nil, Nm.val_int, Int.cast_zero]
    rfl
  · by_cases hgt : (o.sizes.length : ℤ) < c
    · simp -implicitDefEqProofs only [run, callMethod, iDB.update, V0.DB.update, oldrun, hc, hgt, decide_true, decide_false, abs, gt_iff_lt]
      exact ⟨rfl, rfl, h.cs, h.cp⟩
    · cases hi : pyIdx o.sizes.length c with
      | none =>
        have hw : getAt o.centers c = .error .indexError := getAt_err (h.cs ▸ hi)
        simp -implicitDefEqProofs only [run, callMethod, iDB.update, V0.DB.update, oldrun, hc, hgt, decide_true, decide_false, abs, gt_iff_lt, hw]
        exact ⟨rfl, rfl, h.cs, h.cp⟩
      | some i =>
        obtain ⟨v, hv⟩ := getAt_ok (h.cs ▸ hi : pyIdx o.centers.length c = some i)
        obtain ⟨n, hn⟩ := getAt_ok hi
        have h0 : ∀ α : Type, getAt ([] : List α) c = .error .indexError := by
          intro α
          refine getAt_err ?_
          simp [pyIdx]
          split_ifs <;> first | rfl | omega
        simp -implicitDefEqProofs only [run, callMethod, iDB.update, V0.DB.update, oldrun, hc, hgt, decide_true, decide_false, abs, gt_iff_lt,
          hv, hn, hcp, List.map_nil, h0]
        exact ⟨rfl, rfl, h.cs, rfl⟩
end

end DBo
end Verif.Old
