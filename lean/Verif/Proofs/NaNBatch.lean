import Verif.Proofs.NaNExact

/-! # Missing values in batch mode -/

namespace Verif
open Py Spec

variable {d : ℕ}

/-- The evaluation leaves the tables alone. -/
theorem evaluate_keeps {I : Index} {s s' : Core} (e : I.mod.evaluate s = .ok () s') :
    s'.D = s.D ∧ (I ≠ .XB → s'.SEP = s.SEP) ∧ s'.Sm = s.Sm ∧ s'.nClusters = s.nClusters ∧ s'.CP = s.CP ∧ s'.n = s.n := by
  cases I
  case CH =>
    change CH.evaluate s = _ at e
    rw [CH.evaluate, bind_apply, get_apply, Res.bind_ok] at e
    split at e
    · obtain ⟨_, _, e1, e⟩ := py_bind_inv e
      obtain ⟨_, rfl⟩ := lift_inv e1
      cases e
      exact ⟨rfl, fun _ => rfl, rfl, rfl, rfl, rfl⟩
    · cases e
      exact ⟨rfl, fun _ => rfl, rfl, rfl, rfl, rfl⟩
  case WB =>
    change WB.evaluate s = _ at e
    rw [WB.evaluate, bind_apply, get_apply, Res.bind_ok] at e
    split at e
    · obtain ⟨_, _, e1, e⟩ := py_bind_inv e
      obtain ⟨_, rfl⟩ := lift_inv e1
      cases e
      exact ⟨rfl, fun _ => rfl, rfl, rfl, rfl, rfl⟩
    · cases e
      exact ⟨rfl, fun _ => rfl, rfl, rfl, rfl, rfl⟩
  case XB =>
    change XB.evaluate s = _ at e
    rw [XB.evaluate, bind_apply, get_apply, Res.bind_ok] at e
    split at e
    · obtain ⟨_, _, e1, e⟩ := py_bind_inv e
      obtain ⟨_, rfl⟩ := lift_inv e1
      obtain ⟨_, _, e2, e⟩ := py_bind_inv e
      cases e2
      obtain ⟨_, _, e3, e⟩ := py_bind_inv e
      obtain ⟨_, rfl⟩ := lift_inv e3
      obtain ⟨_, _, e4, e⟩ := py_bind_inv e
      obtain ⟨_, rfl⟩ := lift_inv e4
      cases e
      exact ⟨rfl, fun h => absurd rfl h, rfl, rfl, rfl, rfl⟩
    · cases e
      exact ⟨rfl, fun h => absurd rfl h, rfl, rfl, rfl, rfl⟩
  case DB =>
    change DB.evaluate s = _ at e
    rw [DB.evaluate, bind_apply, get_apply, Res.bind_ok] at e
    split at e
    · obtain ⟨_, _, e1, e⟩ := py_bind_inv e
      obtain ⟨_, rfl⟩ := lift_inv e1
      obtain ⟨_, _, e2, e⟩ := py_bind_inv e
      cases e2
      obtain ⟨_, _, e3, e⟩ := py_bind_inv e
      obtain ⟨_, rfl⟩ := lift_inv e3
      cases e
      exact ⟨rfl, fun _ => rfl, rfl, rfl, rfl, rfl⟩
    · cases e
      exact ⟨rfl, fun _ => rfl, rfl, rfl, rfl, rfl⟩
  case GD43 =>
    change GD43.evaluate s = _ at e
    rw [GD43.evaluate, bind_apply, get_apply, Res.bind_ok] at e
    split at e
    · obtain ⟨_, _, e1, e⟩ := py_bind_inv e
      obtain ⟨_, rfl⟩ := lift_inv e1
      obtain ⟨_, _, e2, e⟩ := py_bind_inv e
      obtain ⟨_, rfl⟩ := lift_inv e2
      obtain ⟨_, _, e2, e⟩ := py_bind_inv e
      cases e2
      obtain ⟨_, _, e3, e⟩ := py_bind_inv e
      obtain ⟨_, rfl⟩ := lift_inv e3
      cases e
      exact ⟨rfl, fun _ => rfl, rfl, rfl, rfl, rfl⟩
    · cases e
      exact ⟨rfl, fun _ => rfl, rfl, rfl, rfl, rfl⟩
  case GD53 =>
    change GD53.evaluate s = _ at e
    rw [GD53.evaluate, bind_apply, get_apply, Res.bind_ok] at e
    split at e
    · obtain ⟨_, _, e1, e⟩ := py_bind_inv e
      obtain ⟨_, rfl⟩ := lift_inv e1
      obtain ⟨_, _, e2, e⟩ := py_bind_inv e
      obtain ⟨_, rfl⟩ := lift_inv e2
      obtain ⟨_, _, e2, e⟩ := py_bind_inv e
      cases e2
      obtain ⟨_, _, e3, e⟩ := py_bind_inv e
      obtain ⟨_, rfl⟩ := lift_inv e3
      cases e
      exact ⟨rfl, fun _ => rfl, rfl, rfl, rfl, rfl⟩
    · cases e
      exact ⟨rfl, fun _ => rfl, rfl, rfl, rfl, rfl⟩
  case PS =>
    change PS.evaluate s = _ at e
    rw [PS.evaluate, bind_apply, get_apply, Res.bind_ok] at e
    split at e
    · obtain ⟨_, _, e1, e⟩ := py_bind_inv e
      cases e1
      obtain ⟨_, _, e1, e⟩ := py_bind_inv e
      cases e1
      obtain ⟨_, _, e1, e⟩ := py_bind_inv e
      obtain ⟨_, rfl⟩ := lift_inv e1
      obtain ⟨_, _, e1, e⟩ := py_bind_inv e
      cases e1
      obtain ⟨_, _, e1, e⟩ := py_bind_inv e
      cases e1
      obtain ⟨_, _, e1, e⟩ := py_bind_inv e
      obtain ⟨_, rfl⟩ := lift_inv e1
      obtain ⟨_, _, e1, e⟩ := py_bind_inv e
      obtain ⟨_, rfl⟩ := lift_inv e1
      cases e
      exact ⟨rfl, fun _ => rfl, rfl, rfl, rfl, rfl⟩
    · cases e
      exact ⟨rfl, fun _ => rfl, rfl, rfl, rfl, rfl⟩
  case rCIP =>
    change RCIP.evaluate s = _ at e
    rw [RCIP.evaluate, bind_apply, get_apply, Res.bind_ok] at e
    split at e
    · obtain ⟨_, _, e1, e⟩ := py_bind_inv e
      obtain ⟨_, rfl⟩ := lift_inv e1
      cases e
      exact ⟨rfl, fun _ => rfl, rfl, rfl, rfl, rfl⟩
    · cases e
      exact ⟨rfl, fun _ => rfl, rfl, rfl, rfl, rfl⟩
  case cSIL =>
    change CSIL.evaluate s = _ at e
    rw [CSIL.evaluate, bind_apply, modify_apply, Res.bind_ok, bind_apply, get_apply, Res.bind_ok] at e
    split at e
    · obtain ⟨_, _, e1, e⟩ := py_bind_inv e
      obtain ⟨_, rfl⟩ := lift_inv e1
      cases e
      exact ⟨rfl, fun _ => rfl, rfl, rfl, rfl, rfl⟩
    · cases e
      exact ⟨rfl, fun _ => rfl, rfl, rfl, rfl, rfl⟩

/-- With one cluster the value is 0. -/
theorem evaluate_few {I : Index} {s s' : Core} (e : I.mod.evaluate s = .ok () s') (hk : s'.nClusters ≤ 1)
    (hD : I = .rCIP → s'.D.rows.length ≤ 1) : s'.criterion = .fin 0 := by
  obtain ⟨h1, _, _, h2, _⟩ := evaluate_keeps e
  rw [h2] at hk
  rw [h1] at hD
  have hk' : ¬ s.nClusters > 1 := by omega
  cases I
  case CH => simp only [Index.mod, CHmod, CH.evaluate, bind_apply, get_apply, Res.bind_ok, if_neg hk'] at e; cases e; rfl
  case WB => simp only [Index.mod, WBmod, WB.evaluate, bind_apply, get_apply, Res.bind_ok, if_neg hk'] at e; cases e; rfl
  case XB => simp only [Index.mod, XBmod, XB.evaluate, bind_apply, get_apply, Res.bind_ok, if_neg hk'] at e; cases e; rfl
  case DB => simp only [Index.mod, DBmod, DB.evaluate, bind_apply, get_apply, Res.bind_ok, if_neg hk'] at e; cases e; rfl
  case GD43 => simp only [Index.mod, GD43mod, GD43.evaluate, bind_apply, get_apply, Res.bind_ok, if_neg hk'] at e; cases e; rfl
  case GD53 => simp only [Index.mod, GD53mod, GD53.evaluate, bind_apply, get_apply, Res.bind_ok, if_neg hk'] at e; cases e; rfl
  case PS => simp only [Index.mod, PSmod, PS.evaluate, bind_apply, get_apply, Res.bind_ok, if_neg hk'] at e; cases e; rfl
  case rCIP =>
    have hD' : ¬ s.D.rows.length > 1 := by have := hD rfl; omega
    simp only [Index.mod, RCIPmod, RCIP.evaluate, bind_apply, get_apply, Res.bind_ok, if_neg hD'] at e; cases e; rfl
  case cSIL =>
    have hs : ¬ (s.nClusters > 1 ∧ s.Sm.any = true) := fun h => hk' h.1
    simp only [Index.mod, CSILmod, CSIL.evaluate, bind_apply, modify_apply, get_apply, Res.bind_ok, if_neg hs] at e; cases e; rfl

theorem Index.Tab.evaluate {I : Index} {ks : List ℤ} {S : Stream d} {E : ℤ → ℤ → ℝ} {s s' : Core} (h : I.Tab ks S E s)
    (e : I.mod.evaluate s = .ok () s') : I.Tab ks S E s' := by
  obtain ⟨h1, h2, h3, h4, _, _⟩ := evaluate_keeps e
  cases I
  case CH => exact ⟨h4 ▸ h.1, (h2 nofun).trans h.2⟩
  case WB => exact ⟨h4 ▸ h.1, (h2 nofun).trans h.2⟩
  all_goals
    simp only [Index.Tab, h1, h3, h4] at h ⊢
    exact h

/-- The tables after a batch. -/
theorem tab_batch {I : Index} (hd : 0 < d) {S : Stream d} (hc : Consecutive S) (hk : 1 < numClusters S) (s : Core) :
    ∃ s', I.mod.paramBatch (encRows (S.map Prod.fst)) (S.map Prod.snd) s = .ok () s' ∧
      I.Tab (rangeKeys (numClusters S)) S (crossScatter S) s' := by
  have hr := keysOf_range hc
  have hE : S.map Prod.fst = S.map Prod.fst ++ [] := (List.append_nil _).symm
  rw [hE]
  have up : ∀ {g : ℤ → ℤ → XR} {f : ℤ → ℤ → ℝ}, (∀ a ∈ labels S, ∀ b ∈ labels S, g a b = .fin (f a b)) →
      Upper (rangeKeys (numClusters S)) (fun a b => .fin (f a b))
        (sqMat (rangeKeys (numClusters S)) fun a b => if a = b then 0 else g a b) := fun h =>
    (upper_sqMat _ _).congr hr.nodup fun a ha b hb e => by rw [if_neg e, h _ ((hr.mem a).mp ha) _ ((hr.mem b).mp hb)]
  cases I
  case CH =>
    exact ⟨_, CH.paramBatch_eq S [] s, by simp [CH.batched, stageSep, stage, stageNV, batchBase],
      CH.batched_sep hr (nonempty_of_clusters hk)⟩
  case WB =>
    exact ⟨_, WB.paramBatch_eq S [] s, by simp [CH.batched, stageSep, stage, stageNV, batchBase],
      CH.batched_sep hr (nonempty_of_clusters hk)⟩
  case XB =>
    obtain ⟨U, hU, hp⟩ := XB.paramBatch_eq S [] s
    exact ⟨_, hp, by simp [XB.batched0, stage, stageNV, batchBase],
      hU.congr hr.nodup fun a ha b hb _ => XB.distX_of_mem ((hr.mem a).mp ha) ((hr.mem b).mp hb)⟩
  case DB =>
    refine ⟨_, DB.paramBatch_eq S [] s, by simp [DB.batched0, DB.stageS, stage, stageNV, batchBase], ?_⟩
    refine sqMat_congr fun a ha b hb => ?_
    split
    · rename_i h
      subst h
      simp [sep, dist2, XR.zero_def]
    · exact XB.distX_of_mem ((hr.mem a).mp ha) ((hr.mem b).mp hb)
  case GD43 =>
    exact ⟨_, GD43.paramBatch_eq S [] s, by simp [GD43.batched0, stage, stageNV, batchBase],
      up fun a ha b hb => GD43.distX_of_mem ha hb⟩
  case GD53 =>
    exact ⟨_, GD53.paramBatch_eq S [] s, by simp [GD43.batched0, stage, stageNV, batchBase],
      up fun a ha b hb => GD53.distX_of_mem ha⟩
  case PS =>
    exact ⟨_, PS.paramBatch_eq S [] s, by simp [PS.batched0, stageNV, batchBase],
      up fun a ha b hb => XB.distX_of_mem ha hb⟩
  case rCIP =>
    exact ⟨_, RCIP.paramBatch_eq hd S [] s, by simp [RCIP.batched0, RCIP.stageR, stageNV, RCIP.batchBaseR],
      up fun a ha b hb => if_pos ⟨ha, hb⟩⟩
  case cSIL =>
    exact ⟨_, CSIL.paramBatch_eq S [] s, by simp [CSIL.batched0, stage, stageNV],
      sqMat_congr fun a ha b hb => CSIL.crossX_of_mem ((hr.mem a).mp ha) ((hr.mem b).mp hb)⟩

theorem update_batch_inv {M : Module} {A : Arr2} {lab : LabelArg} {o o' : Obj} (h : M.update (.d2 A) lab o = .ok () o') :
    M.paramBatch A lab.toList o.core = .ok () o'.core := by
  simp only [Module.update] at h
  split at h
  · split at h
    · cases h
    · split at h
      · cases h
      · rw [onCore] at h
        cases hs : M.paramBatch A lab.toList o.core with
        | err ex s => rw [hs] at h; cases h
        | ok u s => rw [hs] at h; cases h; rfl
  · cases h

/-! ## GD53: the compactness of a row with a missing feature -/

theorem sqDist_nan {u v : Vec} {x : XR} (h : Vec.sqDist u v = .ok x) (hl : u.length = v.length) (hn : XR.nan ∈ u) : x = .nan := by
  rw [Vec.sqDist, Vec.sub, Vec.bin, if_pos hl, except_bind_ok] at h
  cases h
  rw [Vec.sumSq]
  refine XR.sum_eq_nan ?_
  obtain ⟨i, hi, e⟩ := List.getElem_of_mem hn
  refine List.mem_map.2 ⟨.nan, ?_, XR.sq_nan⟩
  refine List.mem_of_getElem (i := i) (h := by simp; omega) ?_
  rw [List.getElem_zipWith, e, XR.nan_sub]

theorem forEach_split {σ ι : Type} {body : ι → Py σ Unit} {l m : List ι} {s s' : σ} (h : forEach (l ++ m) body s = .ok () s') :
    ∃ s1, forEach l body s = .ok () s1 ∧ forEach m body s1 = .ok () s' := by
  induction l generalizing s with
  | nil => exact ⟨s, rfl, h⟩
  | cons i l ih =>
    rw [List.cons_append, forEach] at h
    obtain ⟨_, s1, h1, h⟩ := py_bind_inv h
    obtain ⟨s2, h2, h3⟩ := ih h
    refine ⟨s2, ?_, h3⟩
    rw [forEach, bind_apply, h1, Res.bind_ok, h2]

theorem forEach_inv {σ ι : Type} {body : ι → Py σ Unit} {l : List ι} {s s' : σ} {P : σ → Prop} (h : forEach l body s = .ok () s')
    (hP : P s) (hb : ∀ i ∈ l, ∀ t t', P t → body i t = .ok () t' → P t') : P s' := by
  induction l generalizing s with
  | nil => cases h; exact hP
  | cons i l ih =>
    rw [forEach] at h
    obtain ⟨_, s1, h1, h⟩ := py_bind_inv h
    exact ih h (hb i (by simp) _ _ hP h1) fun j hj => hb j (by simp [hj])

namespace GD53

theorem batchStep_cp {A : Arr2} {labels : List ℤ} {ix : ℕ} {s s' : Core} (h : batchStep A labels ix s = .ok () s') :
    ∃ sub cp l, A.take (subsetIndices labels ix) = .ok sub ∧ batchScatter sub sub.mean0 = .ok cp ∧ s.CP = some l ∧
      ix < l.items.length ∧ s'.CP = some ⟨l.isArr, l.items.set ix cp⟩ := by
  rw [batchStep] at h
  obtain ⟨sub, _, h1, h⟩ := py_bind_inv h
  obtain ⟨f1, rfl⟩ := lift_inv h1
  obtain ⟨_, s2, h2, h⟩ := py_bind_inv h
  obtain ⟨_, s3, h3, h⟩ := py_bind_inv h
  obtain ⟨cp, _, h4, h⟩ := py_bind_inv h
  obtain ⟨f4, e⟩ := lift_inv h4
  subst e
  rw [setN, bind_apply, get_apply, Res.bind_ok] at h2
  obtain ⟨_, _, h5, h2⟩ := py_bind_inv h2
  obtain ⟨_, e⟩ := lift_inv h5
  subst e
  cases h2
  rw [setV, bind_apply, get_apply, Res.bind_ok] at h3
  obtain ⟨_, _, h5, h3⟩ := py_bind_inv h3
  obtain ⟨_, e⟩ := lift_inv h5
  subst e
  cases h3
  rw [setCP, bind_apply, get_apply, Res.bind_ok] at h
  obtain ⟨l, _, h5, h⟩ := py_bind_inv h
  obtain ⟨f5, e⟩ := lift_inv h5
  subst e
  obtain ⟨l', _, h6, h⟩ := py_bind_inv h
  obtain ⟨f6, e⟩ := lift_inv h6
  subst e
  cases h
  rw [Seq.set] at f6
  split at f6
  · cases f6
    refine ⟨sub, cp, l, f1, f4, ?_, by assumption, rfl⟩
    simp only at f5
    cases hs : s.CP with
    | none => rw [hs] at f5; cases f5
    | some l' => rw [hs] at f5; cases f5; rfl
  · cases f6

/-- A row with a NaN makes the compactness of its cluster NaN. -/
theorem paramBatch_cp_nan {A : Arr2} {labels : List ℤ} {s s' : Core} (h : paramBatch A labels s = .ok () s') {c : ℕ}
    (hc : c < uniqueSize labels) {n : ℕ} {row : Vec} (hn : n ∈ subsetIndices labels c) (hrow : A.row n = .ok row)
    (hl : row.length = A.cols) (hnan : XR.nan ∈ row) : ∃ cp, s'.CP = some cp ∧ XR.nan ∈ cp.items := by
  rw [paramBatch] at h
  obtain ⟨_, s1, h1, h⟩ := py_bind_inv h
  obtain ⟨_, s2, h2, h⟩ := py_bind_inv h
  obtain ⟨_, s3, h3, h⟩ := py_bind_inv h
  rw [bind_apply, get_apply, Res.bind_ok] at h
  obtain ⟨_, _, h4, h⟩ := py_bind_inv h
  obtain ⟨_, e⟩ := lift_inv h4
  subst e
  obtain ⟨_, _, h5, h⟩ := py_bind_inv h
  obtain ⟨_, e⟩ := lift_inv h5
  subst e
  cases h
  have key : ∃ l : Seq XR, s3.CP = some l ∧ l.items[c]? = some .nan := by
    obtain ⟨m, hm⟩ : ∃ m, uniqueSize labels = c + 1 + m := ⟨uniqueSize labels - (c + 1), by omega⟩
    rw [hm, List.range_add, List.range_succ] at h3
    obtain ⟨t1, h6, h7⟩ := forEach_split h3
    obtain ⟨t2, _, h8⟩ := forEach_split h6
    rw [forEach] at h8
    obtain ⟨_, t3, h9, h8⟩ := py_bind_inv h8
    cases h8
    refine forEach_inv (P := fun t => ∃ l : Seq XR, t.CP = some l ∧ l.items[c]? = some .nan) h7 ?_ ?_
    · obtain ⟨sub, cp, l, e1, e2, e3, e4, e5⟩ := batchStep_cp h9
      refine ⟨_, e5, ?_⟩
      rw [Arr2.take] at e1
      obtain ⟨rs, e6, e1⟩ := except_bind_inv e1
      cases e1
      have hmem : row ∈ rs := mapE_mem_of e6 hn hrow
      rw [batchScatter] at e2
      obtain ⟨ds, e7, e2⟩ := except_bind_inv e2
      cases e2
      obtain ⟨y, hy, e8⟩ := mapE_mem e7 hmem
      rw [sqDist_nan e8 (by simp [Arr2.mean0, hl]) hnan] at hy
      rw [XR.sum_eq_nan hy]
      simp [e4]
    · rintro i hi t t' ⟨l, e1, e2⟩ ht
      obtain ⟨sub, cp, l', _, _, e3, e4, e5⟩ := batchStep_cp ht
      rw [e1] at e3
      cases e3
      refine ⟨_, e5, ?_⟩
      obtain ⟨j, _, rfl⟩ := List.mem_map.1 hi
      simp only
      rw [List.getElem?_set_ne (by omega), e2]
  obtain ⟨l, e1, e2⟩ := key
  exact ⟨l, e1, List.mem_of_getElem? e2⟩

theorem evaluate_cp_nan {s s' : Core} {cp : Seq XR} (e : evaluate s = .ok () s') (hk : 1 < s'.nClusters) (h : s'.CP = some cp)
    (hl : cp.items.length = s'.n.items.length) (hn : XR.nan ∈ cp.items) : s'.criterion = .nan := by
  rw [evaluate, bind_apply, get_apply, Res.bind_ok] at e
  split at e
  · obtain ⟨cp', _, e1, e⟩ := py_bind_inv e
    obtain ⟨f1, rfl⟩ := lift_inv e1
    obtain ⟨m, _, e2, e⟩ := py_bind_inv e
    obtain ⟨f2, rfl⟩ := lift_inv e2
    obtain ⟨_, _, e2, e⟩ := py_bind_inv e
    cases e2
    obtain ⟨q, _, e3, e⟩ := py_bind_inv e
    obtain ⟨f3, rfl⟩ := lift_inv e3
    cases e
    simp only at h hl ⊢
    rw [h] at f1
    cases f1
    rw [GD43.maxScatter, Vec.bin, if_pos (by simpa using hl), except_bind_ok] at f2
    have : m = .nan := by
      refine amax_nan_inv f2 ?_
      obtain ⟨i, hi, e⟩ := List.getElem_of_mem hn
      refine List.mem_of_getElem (i := i) (h := by simp; omega) ?_
      rw [List.getElem_zipWith, e, XR.nan_div]
    rw [this, XR.mul_nan, XR.div_nan]
  · cases e
    contradiction

end GD53

end Verif
