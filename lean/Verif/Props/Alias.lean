import Verif.Proofs.Alias
import Verif.Proofs.Run
import Verif.Props.Demo

/-! # C36: reusing the array passed to `get_cvi` -/

namespace Verif
open Spec Py

/-- **C36**, seven classes: whatever buffers the caller passes and however it overwrites them between the calls, every call returns (or raises)
what it would if each call had received its own copy.

Missing for the full property: CH and WB, which fail, see `C36_false`. -/
theorem C36_partial (I : Index) (hCH : I ≠ .CH) (hWB : I ≠ .WB) (evs : List Ev) (bufs : ℕ → Vec) :
    World.run I evs ⟨bufs, I.mod.fresh, none⟩ = runCopies I evs bufs I.mod.fresh := by
  by_cases h : I.storesSample = true
  · have hI : I.MuUnused := by cases I <;> simp_all [Index.MuUnused, Index.storesSample]
    exact run_blind hI evs _ I.mod.fresh I.mod.fresh.core.mu rfl rfl (by simp)
  · exact run_unshared (by simpa using h) evs _ rfl

/-- **C36**, CH and WB: the same, if the first sample's buffer is left alone until a second sample of the same length has been passed. -/
theorem C36_second_partial (I : Index) (hI : I = .CH ∨ I = .WB) (bufs : ℕ → Vec) (ws₀ ws : List (ℕ × Vec)) (b b' : ℕ) (c c' : ℤ)
    (rest : List Ev) (hws : ∀ p ∈ ws, p.1 ≠ b) (hlen : (bufs b).length = (bufs b').length) :
    World.run I (ws₀.map (fun p => Ev.write p.1 p.2) ++ .call b c :: (ws.map (fun p => Ev.write p.1 p.2) ++ .call b' c' :: rest))
        ⟨bufs, I.mod.fresh, none⟩ =
      runCopies I (ws₀.map (fun p => Ev.write p.1 p.2) ++ .call b c :: (ws.map (fun p => Ev.write p.1 p.2) ++ .call b' c' :: rest))
        bufs I.mod.fresh := by
  rw [run_writes _ _ _ _ (by simp), runCopies_writes]
  simp only [World.run, runCopies]
  congr 1
  obtain ⟨h1, h2⟩ := first_call hI (bufsAfter ws₀ bufs b) c
  have h0 : I.mod.fresh.core.nSamples = 0 := by rcases hI with rfl | rfl <;> rfl
  have hst : I.storesSample = true := by rcases hI with rfl | rfl <;> rfl
  have hs : Started (getCvi I.mod (.d1 (bufsAfter ws₀ bufs b)) (.int c) I.mod.fresh).state.core := by rw [Started, h1]; simp
  rw [run_writes, runCopies_writes]
  · simp only [World.run, runCopies]
    congr 1
    refine run_started hI _ _ ?_ (call_state _ _ _ (started_incBody hI _ _ _ hs) (started_evaluate I))
    have hm : ∃ m, runningMean 2 (bufsAfter ws₀ bufs b) (bufsAfter ws (bufsAfter ws₀ bufs) b') = .ok m := by
      simp [runningMean, Vec.add, Vec.bin, Vec.smul, bufsAfter_length, hlen]
    obtain ⟨m, hm⟩ := hm
    simp only [World.refAfter, hst, if_true, h1, h2, hm, one_ne_zero, if_false, Nat.reduceAdd]
  · intro p hp h
    rw [World.refAfter, if_pos hst, if_pos h0] at h
    exact hws p hp (by simpa using h.symm)

/-- One buffer reused for the three samples of `demo`. -/
noncomputable def reuse : List Ev :=
  [.call 0 0, .write 0 [.fin 2], .call 0 0, .write 0 [.fin 5], .call 0 1]

/-- The buffer before the first call. -/
noncomputable def reuseBufs : ℕ → Vec := fun _ => [.fin 0]

/-- With copies, the calls are the three samples of `demo`. -/
theorem reuse_copies (I : Index) (hI : I ≠ .cSIL) (hd : DimOk I 1) :
    (runCopies I reuse reuseBufs I.mod.fresh).getLast? = some (.ok (Spec.value I demo)) := by
  obtain ⟨o1, h1, i1⟩ := (I.refines hd).call (Or.inl ⟨rfl, rfl⟩) (![0] : Pt 1) 0
  obtain ⟨o2, h2, i2⟩ := (I.refines hd).call i1 (![2] : Pt 1) 0
  obtain ⟨o3, h3, i3⟩ := (I.refines hd).call i2 (![5] : Pt 1) 1
  have e : ∀ a : ℝ, enc (![a] : Pt 1) = [.fin a] := fun a => by simp [enc]
  rw [e] at h1 h2 h3
  rw [Index.actual_eq hI] at h3
  have hs : [] ++ [(![0], 0)] ++ [(![2], 0)] ++ [(![5], 1)] = demo := rfl
  rw [hs] at h3
  simp [reuse, runCopies, reuseBufs, h1, h2, h3, Res.state, Res.val]

theorem lm_new : LabelMap.getInternalLabel [] 0 = (0, [(0, 0)]) := rfl
theorem lm_old : LabelMap.getInternalLabel [(0, 0)] 0 = (0, [(0, 0)]) := rfl
theorem lm_one : LabelMap.getInternalLabel [(0, 0)] 1 = (1, [(0, 0), (1, 1)]) := rfl

macro "run_CH" : tactic => `(tactic|
  norm_num [Index.mod, CHmod, Module.fresh, Core.init, getCvi, Module.update, Module.paramInc, concrete, onCore, lm_new, lm_old, lm_one,
    CH.incBody, setupOrMu, CH.setup, Base.setup, CH.incNew, incClusters, appendN, appendCP, vstackV, vstackG, CH.finish, attr, Seq.append,
    Arr2.vstack, Arr2.zeros, CH.sepEntry, mapE, Seq.get, Arr2.row, Res.mapState, CH.evaluate, CH.incOld, oldStats, runningMean, Vec.add,
    Vec.sub, Vec.sqDist, Vec.bin, Vec.smul, Vec.inner, compactnessNew, gNew, setN, setV, setCP, setG, Seq.set, Arr2.setRow, Vec.zeros,
    Vec.broadcastTo, Vec.sumSq, XR.zero_def, XR.fin_div, XR.idiv, List.range_succ] <;> try rfl)

theorem reuse_CH : (World.run .CH reuse ⟨reuseBufs, Index.CH.mod.fresh, none⟩).getLast? = some (.ok (.fin 6)) := by
  obtain ⟨o1, h1, e1⟩ : ∃ o1, getCvi Index.CH.mod (.d1 [.fin 0]) (.int 0) Index.CH.mod.fresh = .ok (.fin 0) o1 ∧
      o1 = ⟨[(0, 0)], { Core.init with
        dim := 1, isSetup := true, nSamples := 1, n := ⟨false, [1]⟩, v := ⟨1, [[.fin 0]]⟩, CP := some ⟨false, [.fin 0]⟩,
        G := some ⟨1, [[.fin 0]]⟩, nClusters := 1, mu := [.fin 0], SEP := [.fin 0] }⟩ := by
    refine ⟨_, ?_, rfl⟩
    run_CH
  obtain ⟨o2, h2, e2⟩ : ∃ o2, getCvi Index.CH.mod (.d1 [.fin 2]) (.int 0)
        { o1 with core := { o1.core with mu := [.fin 2] } } = .ok (.fin 0) o2 ∧
      o2 = ⟨[(0, 0)], { Core.init with
        dim := 1, isSetup := true, nSamples := 2, n := ⟨false, [2]⟩, v := ⟨1, [[.fin 1]]⟩, CP := some ⟨false, [.fin 2]⟩,
        G := some ⟨1, [[.fin 0]]⟩, nClusters := 1, mu := [.fin 2], SEP := [.fin 2] }⟩ := by
    subst e1
    refine ⟨_, ?_, rfl⟩
    run_CH
  obtain ⟨o3, h3⟩ : ∃ o3, getCvi Index.CH.mod (.d1 [.fin 5]) (.int 1) o2 = .ok (.fin 6) o3 := by
    subst e2
    run_CH
  have h0 : Index.CH.mod.fresh.core.nSamples = 0 := rfl
  have hn : o1.core.nSamples = 1 := by rw [e1]
  have hm : ∃ m, runningMean 2 [.fin 2] [.fin 2] = .ok m := by simp [runningMean, Vec.add, Vec.bin, Vec.smul]
  obtain ⟨m, hm⟩ := hm
  clear e1 e2
  simp only [hn] at h2
  simp [reuse, World.run, World.write, World.refAfter, reuseBufs, Index.storesSample, h0, hn, hm, h1, h2, h3, Res.state, Res.val]

macro "run_WB" : tactic => `(tactic|
  norm_num [Index.mod, WBmod, Module.fresh, Core.init, getCvi, Module.update, Module.paramInc, concrete, onCore, lm_new, lm_old, lm_one,
    WB.incBody, setupOrMu, WB.setup, Base.setup, WB.incNew, incClusters, appendN, appendCP, vstackV, vstackG, WB.finish, attr, Seq.append,
    Arr2.vstack, Arr2.zeros, WB.sepEntry, mapE, Seq.get, Arr2.row, Res.mapState, WB.evaluate, WB.incOld, oldStats, runningMean, Vec.add,
    Vec.sub, Vec.sqDist, Vec.bin, Vec.smul, Vec.inner, compactnessNew, gNew, setN, setV, setCP, setG, Seq.set, Arr2.setRow, Vec.zeros,
    Vec.broadcastTo, Vec.sumSq, XR.zero_def, XR.fin_div, XR.idiv, List.range_succ] <;> try rfl)

theorem reuse_WB : (World.run .WB reuse ⟨reuseBufs, Index.WB.mod.fresh, none⟩).getLast? = some (.ok (.fin (1 / 3))) := by
  obtain ⟨o1, h1, e1⟩ : ∃ o1, getCvi Index.WB.mod (.d1 [.fin 0]) (.int 0) Index.WB.mod.fresh = .ok (.fin 0) o1 ∧
      o1 = ⟨[(0, 0)], { Core.init with
        dim := 1, isSetup := true, nSamples := 1, n := ⟨false, [1]⟩, v := ⟨1, [[.fin 0]]⟩, CP := some ⟨false, [.fin 0]⟩,
        G := some ⟨1, [[.fin 0]]⟩, nClusters := 1, mu := [.fin 0], SEP := [.fin 0] }⟩ := by
    refine ⟨_, ?_, rfl⟩
    run_WB
  obtain ⟨o2, h2, e2⟩ : ∃ o2, getCvi Index.WB.mod (.d1 [.fin 2]) (.int 0)
        { o1 with core := { o1.core with mu := [.fin 2] } } = .ok (.fin 0) o2 ∧
      o2 = ⟨[(0, 0)], { Core.init with
        dim := 1, isSetup := true, nSamples := 2, n := ⟨false, [2]⟩, v := ⟨1, [[.fin 1]]⟩, CP := some ⟨false, [.fin 2]⟩,
        G := some ⟨1, [[.fin 0]]⟩, nClusters := 1, mu := [.fin 2], SEP := [.fin 2] }⟩ := by
    subst e1
    refine ⟨_, ?_, rfl⟩
    run_WB
  obtain ⟨o3, h3⟩ : ∃ o3, getCvi Index.WB.mod (.d1 [.fin 5]) (.int 1) o2 = .ok (.fin (1 / 3)) o3 := by
    subst e2
    run_WB
  have h0 : Index.WB.mod.fresh.core.nSamples = 0 := rfl
  have hn : o1.core.nSamples = 1 := by rw [e1]
  have hm : ∃ m, runningMean 2 [.fin 2] [.fin 2] = .ok m := by simp [runningMean, Vec.add, Vec.bin, Vec.smul]
  obtain ⟨m, hm⟩ := hm
  clear e1 e2
  simp only [hn] at h2
  simp [reuse, World.run, World.write, World.refAfter, reuseBufs, Index.storesSample, h0, hn, hm, h1, h2, h3, Res.state, Res.val]

/-- **C36** is false of CH and WB: a caller that reads every sample into one buffer gets 6 instead of 16/3 from CH, 1/3 instead of 3/8 from
WB, on the three samples 0, 2 (label 0) and 5 (label 1). -/
theorem C36_false (I : Index) (hI : I = .CH ∨ I = .WB) :
    World.run I reuse ⟨reuseBufs, I.mod.fresh, none⟩ ≠ runCopies I reuse reuseBufs I.mod.fresh := by
  intro h
  have h := congrArg List.getLast? h
  rw [reuse_copies I (by rcases hI with rfl | rfl <;> simp) (by rcases hI with rfl | rfl <;> simp [DimOk])] at h
  rcases hI with rfl | rfl
  · rw [reuse_CH, Spec.value, demo_CH] at h
    norm_num at h
  · rw [reuse_WB, Spec.value, Spec.WB, if_neg (by rw [demo_numClusters]; decide), if_pos (by rw [demo_BGSS]; norm_num), demo_BGSS, demo_WGSS, demo_numClusters] at h
    norm_num at h

/-- The seven other classes return the right values to that caller. -/
example : (World.run .DB reuse ⟨reuseBufs, Index.DB.mod.fresh, none⟩).getLast? = some (.ok (Spec.value .DB demo)) := by
  rw [C36_partial .DB (by simp) (by simp)]
  exact reuse_copies .DB (by simp) (by simp [DimOk])

/-- `C36_second_partial` covers the same caller with two buffers used in turn. -/
example (I : Index) (hI : I = .CH ∨ I = .WB) :
    World.run I [.call 0 0, .write 1 [.fin 2], .call 1 0, .write 0 [.fin 5], .call 0 1] ⟨reuseBufs, I.mod.fresh, none⟩ =
      runCopies I [.call 0 0, .write 1 [.fin 2], .call 1 0, .write 0 [.fin 5], .call 0 1] reuseBufs I.mod.fresh :=
  C36_second_partial I hI reuseBufs [] [(1, [.fin 2])] 0 1 0 0 _ (by simp) rfl

end Verif
