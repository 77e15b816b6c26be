import Verif.Proofs.Atomic
import Verif.Proofs.Degenerate
import Verif.Props.Demo

/-!
# C08, C37: samples of the wrong length, and what they leave behind
-/

namespace Verif
open Spec

variable {d : ℕ}

/-! ## C37 -/

/-- **C37** (partial), in every arithmetic.  After any calls at all (failed ones included) that left an object with samples, a sample
whose length is not the number of columns of the centroid table is rejected, unless it has length 1 and an already known label.
Missing for the full property: that exception, which is real, see `C37_false`. -/
theorem Gen.C37_partial {F : Type} [Arith F] (I : Index) (calls : List (Call F)) (y : Vec F) (c : ℤ)
    (h0 : (after (mod F I) calls (mod F I).fresh).core.nSamples ≠ 0)
    (hy : y.length ≠ (after (mod F I) calls (mod F I).fresh).core.v.cols)
    (h1 : y.length ≠ 1 ∨ (after (mod F I) calls (mod F I).fresh).core.nClusters ≤
      ((after (mod F I) calls (mod F I).fresh).labelMap.getInternalLabel c).1) :
    ∃ e o', getCvi (mod F I) (.d1 y) (.int c) (after (mod F I) calls (mod F I).fresh) = .err e o' :=
  call_inc_fails (incBody_fails I (rect_after I calls) h0 hy h1)

/-- **C37** (partial).  The same in real arithmetic.
Missing for the full property: that exception, which is real, see `C37_false`. -/
theorem C37_partial (I : Index) (calls : List Call) (y : Vec) (c : ℤ)
    (h0 : (after I.mod calls I.mod.fresh).core.nSamples ≠ 0)
    (hy : y.length ≠ (after I.mod calls I.mod.fresh).core.v.cols)
    (h1 : y.length ≠ 1 ∨ (after I.mod calls I.mod.fresh).core.nClusters ≤
      ((after I.mod calls I.mod.fresh).labelMap.getInternalLabel c).1) :
    ∃ e o', getCvi I.mod (.d1 y) (.int c) (after I.mod calls I.mod.fresh) = .err e o' :=
  call_inc_fails (incBody_fails I (rect_after I calls) h0 hy h1)

/-- **C37** (partial), for an object fed a stream of `d`-dimensional samples. -/
theorem C37_stream_partial (I : Index) (hd : DimOk I d) (S : Stream d) (hS : S ≠ []) (y : Vec) (c : ℤ) (hy : y.length ≠ d)
    (h1 : y.length ≠ 1 ∨ c ∉ labels S) : ∃ e o', getCvi I.mod (.d1 y) (.int c) (objAfter I S) = .err e o' := by
  rcases objAfter_inv hd S with ⟨h, _⟩ | ⟨_, hm, hr⟩
  · exact absurd h hS
  refine call_inc_fails (incBody_fails I (rect_rep hr).1 ?_ (by rwa [(rect_rep hr).2]) ?_)
  · rw [(rep_core hr).2.1]; simpa using hS
  · rcases h1 with h1 | h1
    · exact .inl h1
    · refine .inr ?_
      rw [hm, getInternalLabel_mapOf, (rep_core hr).1.k, List.idxOf_eq_length fun h => h1 (mem_keys.mp h)]

example : ∃ e o', getCvi (Index.mod .CH) (.d1 [.fin 1, .fin 2, .fin 3]) (.int 0) (objAfter .CH demo) = .err e o' :=
  C37_stream_partial _ (by simp [DimOk]) demo (by simp [demo]) _ _ (by simp) (by simp)

/-- **C37** is false as stated: in every class a one-element sample with a known label is accepted in any dimension, and the returned value is
the one for the sample that repeats the element. -/
theorem C37_false (I : Index) (hd : DimOk I d) (S : Stream d) (a : ℝ) (c : ℤ) (hc : c ∈ labels S) :
    (getCvi I.mod (.d1 [.fin a]) (.int c) (objAfter I S)).val =
      (getCvi I.mod (.d1 (enc fun _ : Fin d => a)) (.int c) (objAfter I S)).val ∧
    ∃ v o', getCvi I.mod (.d1 [.fin a]) (.int c) (objAfter I S) = .ok v o' := by
  obtain ⟨o1, h1⟩ := call_one hd (objAfter_inv hd S) a hc
  obtain ⟨o2, h2, _⟩ := (I.refines hd).call (objAfter_inv hd S) (fun _ => a) c
  exact ⟨by rw [h1, h2]; rfl, _, o1, h1⟩

/-- The exception occurs: in dimension 7, say, with one cluster. -/
example (I : Index) : ∃ v o', getCvi I.mod (.d1 [.fin 5]) (.int 3) (objAfter I [((fun _ => 1 : Pt 7), 3)]) = .ok v o' :=
  (C37_false I (fun _ => by norm_num) _ 5 3 (by simp [labels])).2

/-! ## C08 -/

/-- An object in incremental mode with `d ≠ 1` features is given a sample of length neither `d` nor 1. -/
theorem bad_call {I : Index} (hd : DimOk I d) {S : Stream d} (hS : S ≠ []) {y : Vec} (c : ℤ) (h1 : d ≠ 1) (hy : y.length ≠ d)
    (hy1 : y.length ≠ 1) : getCvi I.mod (.d1 y) (.int c) (objAfter I S) =
      .err .valueError ⟨mapOf (addKey (keys S) c), (objAfter I S).core⟩ := by
  rcases objAfter_inv hd S with ⟨h, _⟩ | ⟨_, hm, hr⟩
  · exact absurd h hS
  have hb := incBody_atomic (i := (keys S).idxOf c) hS hr h1 hy hy1
  have : I.mod.update (.d1 y) (.int c) (objAfter I S) = .err .valueError ⟨mapOf (addKey (keys S) c), (objAfter I S).core⟩ := by
    simp [Module.update, Module.paramInc, concrete, onCore, hm, getInternalLabel_mapOf, hb, Res.mapState]
  rw [getCvi, Py.bind_apply, this]
  rfl

/-- **C08** (partial).  A sample of length neither `d` nor 1 with a label already seen is rejected and leaves the object exactly as it was.
With a label not seen before, the only trace is that label in the label map, so a retry with that label goes as if the
rejected call had not been made.
Missing for the full property: a rejected sample with a new label followed by another new label, see `C08_false`;
and samples of length 1, or any wrong length when `d = 1`. -/
theorem C08_partial (I : Index) (hd : DimOk I d) (S : Stream d) (hS : S ≠ []) (y : Vec) (c : ℤ) (h1 : d ≠ 1) (hy : y.length ≠ d)
    (hy1 : y.length ≠ 1) :
    (c ∈ labels S → getCvi I.mod (.d1 y) (.int c) (objAfter I S) = .err .valueError (objAfter I S)) ∧
    (c ∉ labels S → ∃ o', getCvi I.mod (.d1 y) (.int c) (objAfter I S) = .err .valueError o' ∧
      o'.core = (objAfter I S).core ∧
      ∀ x : Pt d, getCvi I.mod (.d1 (enc x)) (.int c) o' = getCvi I.mod (.d1 (enc x)) (.int c) (objAfter I S)) := by
  have hb := bad_call hd hS c h1 hy hy1
  have hm : (objAfter I S).labelMap = mapOf (keys S) := by
    rcases objAfter_inv hd S with ⟨h, _⟩ | ⟨_, hm, _⟩
    · exact absurd h hS
    · exact hm
  constructor
  · intro hc
    rw [hb, addKey_old (mem_keys.mpr hc), ← hm]
  · intro hc
    have hk : c ∉ keys S := fun h => hc (mem_keys.mp h)
    refine ⟨_, hb, rfl, fun x => ?_⟩
    have : I.mod.update (.d1 (enc x)) (.int c) ⟨mapOf (addKey (keys S) c), (objAfter I S).core⟩ =
        I.mod.update (.d1 (enc x)) (.int c) (objAfter I S) := by
      simp only [Module.update, Module.paramInc, concrete, hm, getInternalLabel_mapOf]
      rw [addKey_new hk, idxOf_append_new hk, List.idxOf_eq_length hk, addKey_old (by simp)]
      simp
    rw [getCvi, Py.bind_apply, this]
    rfl

/-- **C08** is false, seven classes: after a rejected sample with a new label, the first correct sample with another new label raises
IndexError. -/
theorem C08_next_label_false (I : Index) (hCH : I ≠ .CH) (hWB : I ≠ .WB) (hd : DimOk I d) (S : Stream d) (hS : S ≠ []) (y : Vec)
    (c : ℤ) (h1 : d ≠ 1) (hy : y.length ≠ d) (hy1 : y.length ≠ 1) (hc : c ∉ labels S) (x : Pt d) (c' : ℤ)
    (hc' : c' ∉ labels S) (hcc : c' ≠ c) :
    ∃ o', getCvi I.mod (.d1 y) (.int c) (objAfter I S) = .err .valueError o' ∧
      (getCvi I.mod (.d1 (enc x)) (.int c') o').val = .error .indexError ∧
      (getCvi I.mod (.d1 (enc x)) (.int c') (objAfter I S)).val = .ok (I.actual (S ++ [(x, c')])) := by
  refine ⟨_, bad_call hd hS c h1 hy hy1, ?_, ?_⟩
  · rcases objAfter_inv hd S with ⟨h, _⟩ | ⟨_, hm, hr⟩
    · exact absurd h hS
    have hk : c ∉ keys S := fun h => hc (mem_keys.mp h)
    have hk' : c' ∉ keys S ++ [c] := by
      simp only [List.mem_append, List.mem_singleton, not_or]
      exact ⟨fun h => hc' (mem_keys.mp h), hcc⟩
    obtain ⟨s', hs', _⟩ := (I.refines hd).step S _ x c' (.inr ⟨hS, hr⟩)
    rw [List.idxOf_eq_length fun h => hc' (mem_keys.mp h)] at hs'
    obtain ⟨s3, h3⟩ := incBody_far hCH hWB (i := (keys S).length + 1) (rep_core hr).1.k
      (by simpa using keys_ne_nil hS)
      (by rw [(rep_core hr).2.1]; simpa using hS) (by omega) hs'
    have : I.mod.update (.d1 (enc x)) (.int c') ⟨mapOf (addKey (keys S) c), (objAfter I S).core⟩ =
        .err .indexError ⟨mapOf (keys S ++ [c] ++ [c']), s3⟩ := by
      rw [addKey_new hk]
      simp only [Module.update, Module.paramInc, concrete, getInternalLabel_mapOf]
      rw [addKey_new hk', List.idxOf_eq_length hk']
      simp [onCore, h3, Res.mapState]
    rw [getCvi, Py.bind_apply, this]
    rfl
  · obtain ⟨o2, h2, _⟩ := (I.refines hd).call (objAfter_inv hd S) x c'
    rw [h2]; rfl

example : ∃ o', getCvi (Index.mod .PS) (.d1 []) (.int 7) (objAfter .PS [((fun _ => 1 : Pt 2), 3)]) = .err .valueError o' ∧
      (getCvi (Index.mod .PS) (.d1 (enc ![1, 2])) (.int 8) o').val = .error .indexError := by
  obtain ⟨o', h1, h2, _⟩ := C08_next_label_false .PS (by simp) (by simp) (by simp [DimOk]) [((fun _ => 1 : Pt 2), 3)] (by simp) [] 7
    (by simp) (by simp) (by simp) (by simp [labels]) ![1, 2] 8 (by simp [labels]) (by simp)
  exact ⟨o', h1, h2⟩

/-- **C08** is false, CH and WB: after a rejected sample with a new label, two correct samples of another new label `c'` count as two
clusters: the values are those of a stream in which the second sample has a label `c''` of its own. -/
theorem C08_split_false (I : Index) (hI : I = .CH ∨ I = .WB) (S : Stream d) (hS : S ≠ []) (y : Vec)
    (c : ℤ) (h1 : d ≠ 1) (hy : y.length ≠ d) (hy1 : y.length ≠ 1) (hc : c ∉ labels S) (x z : Pt d) (c' c'' : ℤ)
    (hc' : c' ∉ labels S) (hcc : c' ≠ c) (hc'' : c'' ∉ labels S) (hcc' : c'' ≠ c') :
    ∃ o', getCvi I.mod (.d1 y) (.int c) (objAfter I S) = .err .valueError o' ∧
      (feed I.mod (encS [(x, c'), (z, c')]) o').val =
        .ok [Spec.value I (S ++ [(x, c')]), Spec.value I (S ++ [(x, c'), (z, c'')])] ∧
      (feed I.mod (encS [(x, c'), (z, c')]) (objAfter I S)).val =
        .ok [Spec.value I (S ++ [(x, c')]), Spec.value I (S ++ [(x, c'), (z, c')])] := by
  have hd : DimOk I d := by rcases hI with rfl | rfl <;> simp [DimOk]
  have hcs : I ≠ .cSIL := by rcases hI with rfl | rfl <;> simp
  refine ⟨_, bad_call hd hS c h1 hy hy1, ?_, ?_⟩
  · rcases objAfter_inv hd S with ⟨h, _⟩ | ⟨_, hm, hr⟩
    · exact absurd h hS
    have hk : c ∉ keys S := fun h => hc (mem_keys.mp h)
    have hkc' : c' ∉ keys S := fun h => hc' (mem_keys.mp h)
    have hkc'' : c'' ∉ keys (S ++ [(x, c')]) := by
      rw [mem_keys]
      simp only [labels, List.map_append, List.map_cons, List.map_nil, List.toFinset_append, Finset.mem_union]
      rintro (h | h)
      · exact hc'' h
      · simp at h; exact hcc' h
    have hk' : c' ∉ keys S ++ [c] := by
      simp only [List.mem_append, List.mem_singleton, not_or]
      exact ⟨hkc', hcc⟩
    obtain ⟨L, hL⟩ : ∃ L, L = keys S ++ [c] ++ [c'] := ⟨_, rfl⟩
    obtain ⟨s1, hs1, hR1⟩ := (I.refines hd).step S _ x c' (.inr ⟨hS, hr⟩)
    rw [List.idxOf_eq_length hkc'] at hs1
    rw [← incBody_far_CH hI (i := (keys S).length + 1) (rep_core hr).1.k
      (by rw [(rep_core hr).2.1]; simpa using hS) (by omega)] at hs1
    obtain ⟨s2, hs2, hv2, hR2⟩ := (I.refines hd).eval _ s1 (by simp) hR1
    have e1 : getCvi I.mod (.d1 (enc x)) (.int c') ⟨mapOf (addKey (keys S) c), (objAfter I S).core⟩ =
        .ok (Spec.value I (S ++ [(x, c')])) ⟨mapOf L, s2⟩ := by
      have : I.mod.update (.d1 (enc x)) (.int c') ⟨mapOf (addKey (keys S) c), (objAfter I S).core⟩ =
          .ok () ⟨mapOf L, s1⟩ := by
        rw [addKey_new hk]
        simp only [Module.update, Module.paramInc, concrete, getInternalLabel_mapOf]
        rw [addKey_new hk', List.idxOf_eq_length hk', ← hL]
        simp [onCore, hs1, Res.mapState]
      rw [← I.actual_eq hcs]
      simp [getCvi, this, onCore, hs2, Res.mapState, hv2]
    obtain ⟨s3, hs3, hR3⟩ := (I.refines hd).step _ s2 z c'' (.inr ⟨by simp, hR2⟩)
    rw [List.idxOf_eq_length hkc'', keys_append, addKey_new hkc', List.length_append, List.length_singleton] at hs3
    obtain ⟨s4, hs4, hv4, _⟩ := (I.refines hd).eval _ s3 (by simp) hR3
    have e2 : getCvi I.mod (.d1 (enc z)) (.int c') ⟨mapOf L, s2⟩ =
        .ok (Spec.value I (S ++ [(x, c'), (z, c'')])) ⟨mapOf L, s4⟩ := by
      have : I.mod.update (.d1 (enc z)) (.int c') ⟨mapOf L, s2⟩ =
          .ok () ⟨mapOf L, s3⟩ := by
        simp only [Module.update, Module.paramInc, concrete, getInternalLabel_mapOf]
        rw [addKey_old (by simp [hL]), hL, idxOf_append_new hk', ← hL]
        simp [onCore, hs3, Res.mapState]
      rw [← I.actual_eq hcs]
      simp only [List.append_assoc, List.cons_append, List.nil_append] at hv4
      simp [getCvi, this, onCore, hs4, Res.mapState, hv4]
    simp [encS, feed, e1, e2, Res.val]
  · obtain ⟨o', h, _⟩ := (I.refines hd).feed [(x, c'), (z, c')] S _ (objAfter_inv hd S)
    rw [h]
    simp [Res.val, I.actual_eq hcs]

/-- Three clusters of one sample each. -/
private noncomputable def split3 : Stream 2 := [(![0, 0], 0), (![1, 0], 2), (![2, 0], 3)]
/-- The same samples in two clusters. -/
private noncomputable def pair2 : Stream 2 := [(![0, 0], 0), (![1, 0], 2), (![2, 0], 2)]

private theorem split3_ne_pair2 {I : Index} (hI : I = .CH ∨ I = .WB) : Spec.value I split3 ≠ Spec.value I pair2 := by
  have l3 : labels split3 = {0, 2, 3} := by ext c; simp [labels, split3]
  have l2 : labels pair2 = {0, 2} := by ext c; simp [labels, pair2]
  have k3 : numClusters split3 = 3 := by rw [numClusters, l3]; rfl
  have k2 : numClusters pair2 = 2 := by rw [numClusters, l2]; rfl
  have a0 : cluster split3 0 = [![0, 0]] := by simp [cluster, split3]
  have a2 : cluster split3 2 = [![1, 0]] := by simp [cluster, split3]
  have a3 : cluster split3 3 = [![2, 0]] := by simp [cluster, split3]
  have b0 : cluster pair2 0 = [![0, 0]] := by simp [cluster, pair2]
  have b2 : cluster pair2 2 = [![1, 0], ![2, 0]] := by simp [cluster, pair2]
  have c0 : centroid pair2 0 = ![0, 0] := by
    funext i; fin_cases i <;> norm_num [centroid, b0, meanOf]
  have c2 : centroid pair2 2 = ![3 / 2, 0] := by
    funext i; fin_cases i <;> norm_num [centroid, b2, meanOf]
  have m2 : mean pair2 = ![1, 0] := by
    funext i; fin_cases i <;> norm_num [mean, pair2, meanOf]
  have w3 : WGSS split3 = 0 := by
    rw [WGSS, l3, Finset.sum_insert (by decide), Finset.sum_pair (by decide)]
    simp [scatter, centroid, meanOf, a0, a2, a3, dist2]
  have w2 : WGSS pair2 = 1 / 2 := by
    rw [WGSS, l2, Finset.sum_pair (by decide)]
    norm_num [scatter, b0, b2, c0, c2, dist2]
  have g2 : BGSS pair2 = 3 / 2 := by
    rw [BGSS, l2, Finset.sum_pair (by decide)]
    norm_num [size, b0, b2, c0, c2, m2, dist2]
  have e3 : split3.length = 3 := rfl
  rcases hI with rfl | rfl
  · have : Spec.CH split3 = .nan := by
      rw [Spec.CH, if_neg (by rw [k3]; decide), if_neg (by simp [w3]), if_neg (by simp [k3, e3])]
    have h2 : Spec.CH pair2 ≠ .nan := by
      rw [Spec.CH, if_neg (by rw [k2]; decide), if_pos (by rw [w2]; norm_num)]
      simp
    simpa [Spec.value, this] using h2.symm
  · have h2 : Spec.WB pair2 = .fin (2 / 3) := by
      rw [Spec.WB, if_neg (by rw [k2]; decide), if_pos (by rw [g2]; norm_num), w2, g2, k2]
      norm_num
    have : Spec.WB split3 ≠ .fin (2 / 3) := by
      rw [Spec.WB, if_neg (by rw [k3]; decide), w3]
      split_ifs <;> norm_num
    simpa [Spec.value, h2] using this

/-- **C08** is false of every class: there is an object, a rejected sample and two correct samples that give different results after the
rejected call than without it. -/
theorem C08_false (I : Index) : ∃ (S : Stream 2) (y : Vec) (c : ℤ) (T : Stream 2) (o' : Obj),
    getCvi I.mod (.d1 y) (.int c) (objAfter I S) = .err .valueError o' ∧
      (feed I.mod (encS T) o').val ≠ (feed I.mod (encS T) (objAfter I S)).val := by
  by_cases hI : I = .CH ∨ I = .WB
  · obtain ⟨o', h1, h2, h3⟩ := C08_split_false I hI [((![0, 0] : Pt 2), 0)] (by simp) [] 1 (by simp) (by simp) (by simp)
      (by simp [labels]) ![1, 0] ![2, 0] 2 3 (by simp [labels]) (by simp) (by simp [labels]) (by simp)
    refine ⟨_, _, _, [((![1, 0] : Pt 2), 2), (![2, 0], 2)], o', h1, ?_⟩
    rw [h2, h3]
    have := split3_ne_pair2 hI
    simp only [split3, pair2] at this
    simpa using this
  · push Not at hI
    obtain ⟨o', h1, h2, h3⟩ := C08_next_label_false I hI.1 hI.2 (by simp [DimOk]) [((![0, 0] : Pt 2), 0)] (by simp) [] 1
      (by simp) (by simp) (by simp) (by simp [labels]) ![1, 0] 2 (by simp [labels]) (by simp)
    refine ⟨_, _, _, [((![1, 0] : Pt 2), 2)], o', h1, ?_⟩
    have val_bind : ∀ (r : Res Obj XR), ((r.bind fun a s => (Res.ok [a] s : Res Obj (List XR))).val) = r.val.map fun a => [a] := by
      intro r; cases r <;> rfl
    have e : ∀ o, (feed I.mod (encS [((![1, 0] : Pt 2), 2)]) o).val = (getCvi I.mod (.d1 (enc ![1, 0])) (.int 2) o).val.map fun a => [a] := by
      intro o
      rw [← val_bind]
      simp [feed, encS]
    rw [e, e, h2, h3]
    simp [Except.map]

end Verif
