import Verif.Proofs.NaNBlind
import Verif.Proofs.NaNBatch

/-! # The value of a stream with missing features -/

namespace Verif
open Py Spec

variable {d : ℕ}

theorem size_count (S : Stream d) (c : ℤ) : size S c = (S.map Prod.snd).count c := by
  rw [size, cluster, List.length_map, List.count_eq_countP, List.countP_map, List.countP_eq_length_filter]
  rfl

theorem run_prefix {I : Index} {T : GappyStream d} {rs : List XR} (h : incRunG I T = .ok rs) {n : ℕ} (hn : n < T.length) :
    ∃ rs1 o1, feed I.mod (encSG (T.take (n + 1))) I.mod.fresh = .ok rs1 o1 ∧ rs1.length = n + 1 ∧ rs[n]? = rs1[n]? := by
  rw [incRunG] at h
  cases hf : feed I.mod (encSG T) I.mod.fresh with
  | err ex s => rw [hf] at h; cases h
  | ok rs' o' =>
    rw [hf] at h
    cases h
    have e : encSG T = encSG (T.take (n + 1)) ++ encSG (T.drop (n + 1)) := by simp [encSG]
    rw [e] at hf
    obtain ⟨rs1, o1, rs2, h1, _, rfl⟩ := feed_split _ _ _ hf
    have hl := feed_length _ _ h1
    simp [encSG] at hl
    have hl : rs1.length = n + 1 := by omega
    exact ⟨rs1, o1, h1, hl, List.getElem?_append_left (by omega)⟩

theorem last_nan {I : Index} (hd : DimOk I d) {T : GappyStream d} {rs : List XR} {o : Obj}
    (h : feed I.mod (encSG T) I.mod.fresh = .ok rs o) {p : Gappy d × ℤ} (hp : p ∈ T) (hg : HasGap p.1) (h2 : TwoLabels T)
    (hI : I = .GD53 → 2 ≤ (T.map Prod.snd).count p.2) : rs.getLast? = some .nan := by
  obtain ⟨i, hi⟩ := hg
  obtain ⟨q, hq, hqp⟩ : ∃ q ∈ T, q.2 ≠ p.2 := by
    obtain ⟨a, ha, b, hb, hab⟩ := h2
    by_cases e : a.2 = p.2
    · exact ⟨b, hb, fun e' => hab (e.trans e'.symm)⟩
    · exact ⟨a, ha, e⟩
  obtain ⟨P, Q, x, hv⟩ := gap_vary hp hi
  have hr : ∀ r, CoreRef (objAfter I (vary P x p.2 Q i r)).core o.core := fun r => by
    obtain ⟨rs', o', e, _, hr⟩ := incRunG_ref hd (hv r)
    rw [h] at e
    cases e
    exact hr.2
  obtain ⟨s, e, el⟩ := feed_last (encSG T) (by simpa [encSG] using List.ne_nil_of_mem hp) _ h
  have hmem : ∀ a ∈ T, a.2 ∈ labels (vary P x p.2 Q i 0) := fun a ha => by
    rw [labels, completes_snd (hv 0)]
    simpa using ⟨a.1, ha⟩
  rw [el, value_nan P Q x p.2 i (fun r => tab_inc P Q x p.2 i hd r) e hr hqp (hmem q hq) (mem_keys.2 (hmem q hq))
    (mem_keys.2 (hmem p hp)) (fun hI' => ?_) (fun _ => (vary_entry P Q x p.2 i hqp (hmem q hq)).ne)]
  have := hI hI'
  rw [← completes_snd (hv 0), ← size_count, vary_size] at this
  omega

theorem getLast_of_length {rs : List XR} {n : ℕ} (h : rs.length = n + 1) : rs.getLast? = rs[n]? := by
  rw [List.getLast?_eq_getElem?, h]; rfl

theorem one_zero {I : Index} (hd : DimOk I d) {T : GappyStream d} {rs : List XR} {o : Obj}
    (h : feed I.mod (encSG T) I.mod.fresh = .ok rs o) (hne : T ≠ []) (h1 : ¬ TwoLabels T) : rs.getLast? = some (.fin 0) := by
  obtain ⟨rs', o', e', _, hr⟩ := incRunG_ref hd (fill_completes T)
  rw [h] at e'
  cases e'
  obtain ⟨s, e, el⟩ := feed_last (encSG T) (by simpa [encSG] using hne) _ h
  have hrep : I.Rep (fill T) (objAfter I (fill T)).core := by
    rcases objAfter_inv hd (fill T) with ⟨h, _⟩ | ⟨_, _, h⟩
    · exact absurd (by simpa [fill] using h) hne
    · exact h
  have htab := tab_rep hrep
  have hk : (keys (fill T)).length ≤ 1 := by
    rw [(keysOf_keys (fill T)).length, numClusters]
    refine Finset.card_le_one.2 fun a ha b hb => ?_
    rw [labels, completes_snd (fill_completes T)] at ha hb
    simp only [List.mem_toFinset, List.mem_map] at ha hb
    obtain ⟨p, hp, rfl⟩ := ha
    obtain ⟨q, hq, rfl⟩ := hb
    by_contra hab
    exact h1 ⟨p, hp, q, hq, hab⟩
  rw [el, evaluate_few e (by rw [← hr.2.nClusters, htab.1]; exact hk)]
  rintro rfl
  rw [← rows_length hr.2.D, htab.2.1]
  exact hk

theorem encG_enc {x : Pt d} {y : Gappy d} (h : Fills x y) (hy : ¬ HasGap y) : encG y = enc x := by
  rw [enc, encG]
  congr 1
  funext i
  cases hi : y i with
  | none => exact absurd ⟨i, hi⟩ hy
  | some r => rw [h i r hi]; rfl

theorem encSG_encS {S : Stream d} {T : GappyStream d} (h : Completes S T) (hg : ¬ SomeGap T) : encSG T = encS S := by
  induction h with
  | nil => rfl
  | @cons p q S T hpq _ ih =>
    rw [encSG, encS, List.map_cons, List.map_cons, encG_enc hpq.1 fun h => hg ⟨q, by simp, h⟩, hpq.2]
    exact congrArg _ (ih fun ⟨a, ha, h⟩ => hg ⟨a, by simp [ha], h⟩)

/-- Values of completions. -/
theorem run_at {I : Index} (hd : DimOk I d) {S : Stream d} {vs : List XR} (h : incRun I S = .ok vs) (n : ℕ) :
    vs[n]? = ((S.take (n + 1)).inits.tail.map I.actual)[n]? := by
  rw [incRun_actual hd] at h
  cases h
  simp only [List.getElem?_map, List.getElem?_tail, List.take_inits]
  rw [List.getElem?_take_of_lt (by omega)]

/-! ## Batch mode -/

theorem batch_nan {I : Index} (hd : 0 < d) {S : Stream d} {T : GappyStream d} (hS : Completes S T) (hc : Consecutive S)
    (hk : 2 ≤ numClusters S) {p : Gappy d × ℤ} (hp : p ∈ T) (hg : HasGap p.1) : batchRunG I T = .ok .nan := by
  obtain ⟨i, hi⟩ := hg
  obtain ⟨P, Q, x, hv⟩ := gap_vary hp hi
  have hlab : ∀ r, labels (vary P x p.2 Q i r) = labels S := fun r => by
    rw [labels, completes_snd (hv r), ← completes_snd hS, labels]
  have hnum : ∀ r, numClusters (vary P x p.2 Q i r) = numClusters S := fun r => by rw [numClusters, hlab, numClusters]
  have hcon : ∀ r, Consecutive (vary P x p.2 Q i r) := fun r => by
    rw [Consecutive, hlab, hnum]
    exact hc
  have ho : I.mod.fresh.core.isSetup = false := by cases I <;> rfl
  have hM : I.mod.abstract = false := by cases I <;> rfl
  -- every completion succeeds
  have hone : ∀ r, ∃ v o, getCvi I.mod (.d2 (encRows ((vary P x p.2 Q i r).map Prod.fst)))
      (.arr ((vary P x p.2 Q i r).map Prod.snd)) I.mod.fresh = .ok v o ∧
      I.Tab (rangeKeys (numClusters S)) (vary P x p.2 Q i r) (crossScatter (vary P x p.2 Q i r)) o.core := by
    intro r
    have h1 := batchRun_eq (I := I) (fun _ => hd) (hcon r) (by rw [hnum]; exact hk)
    rw [batchRun] at h1
    cases hf : getCvi I.mod (.d2 (encRows ((vary P x p.2 Q i r).map Prod.fst)))
      (.arr ((vary P x p.2 Q i r).map Prod.snd)) I.mod.fresh with
    | err ex s => rw [hf] at h1; cases h1
    | ok v o =>
      refine ⟨v, o, rfl, ?_⟩
      obtain ⟨o1, h2, h3, _⟩ := getCvi_inv hf
      obtain ⟨s', h4, h5⟩ := tab_batch (I := I) hd (hcon r) (by rw [hnum]; omega) I.mod.fresh.core
      have h6 := update_batch_inv h2
      rw [LabelArg.toList, h4] at h6
      cases h6
      rw [hnum] at h5
      exact h5.evaluate h3
  choose v o hvo htab using hone
  have href : ∀ r, ∃ w o', getCvi I.mod (.d2 (encRowsG (T.map Prod.fst))) (.arr (T.map Prod.snd)) I.mod.fresh = .ok w o' ∧
      ObjRef (o r) o' := by
    intro r
    have hrows := rowsG_ref (hv r)
    have e := hvo r
    rw [hrows.2] at e
    obtain ⟨w, o', h1, _, h2⟩ := getCvi_ref I.modRef (.d2 hrows.1) (objRef_refl _) e (batch_good e)
    exact ⟨w, o', h1, h2⟩
  obtain ⟨w, o', hw, _⟩ := href 0
  have hr : ∀ r, CoreRef (o r).core o'.core := fun r => by
    obtain ⟨w2, o2, hw2, hr⟩ := href r
    rw [hw] at hw2
    cases hw2
    exact hr.2
  obtain ⟨o1, hup, hev, rfl⟩ := getCvi_inv hw
  rw [batchRunG, hw]
  have hpl : p.2 ∈ labels S := by
    rw [labels, completes_snd hS]
    simpa using ⟨p.1, hp⟩
  obtain ⟨b, hb, hbp⟩ : ∃ b ∈ labels S, b ≠ p.2 := Finset.exists_mem_ne (by rw [numClusters] at hk; omega) p.2
  have hks := keysOf_range hc
  suffices o'.core.criterion = .nan by rw [this]; rfl
  by_cases hG : I = .GD53
  · subst hG
    obtain ⟨c, hc1, hc2⟩ : ∃ c : ℕ, c < numClusters S ∧ (c : ℤ) = p.2 := by
      have := (hks.mem p.2).2 hpl
      simpa [rangeKeys] using this
    obtain ⟨m, hm, hmp⟩ := List.getElem_of_mem hp
    obtain ⟨cp, hcp, hnan⟩ := GD53.paramBatch_cp_nan (update_batch_inv hup) (c := c) (n := m) (row := encG p.1)
      (by rw [LabelArg.toList, ← completes_snd hS, uniqueSize_eq]; exact hc1)
      (by simp [subsetIndices, LabelArg.toList, hm, hmp, hc2]) (by simp [Arr2.row, encRowsG, hm, hmp]) (by simp [encG, encRowsG])
      (by simp only [encG, List.mem_ofFn]; exact ⟨i, by rw [hi]; rfl⟩)
    obtain ⟨_, _, _, k1, k2, k3⟩ := evaluate_keeps hev
    refine GD53.evaluate_cp_nan hev ?_ (k2.trans hcp) ?_ hnan
    · rw [← (hr 0).nClusters, (htab 0).1]
      simp [rangeKeys]
      omega
    · obtain ⟨o2, h2, h3, _⟩ := getCvi_inv (hvo 0)
      obtain ⟨_, _, _, _, k4, k5⟩ := evaluate_keeps h3
      have h6 := update_batch_inv h2
      have h7 := GD53.paramBatch_eq (vary P x p.2 Q i 0) [] Index.GD53.mod.fresh.core
      rw [List.append_nil] at h7
      change GD53.paramBatch _ _ _ = _ at h6
      rw [LabelArg.toList, h7] at h6
      obtain ⟨l, h8, h9⟩ : ∃ l : Seq XR, o2.core.CP = some l ∧ l.items.length = o2.core.n.items.length := by
        have h6 := (Res.ok.inj h6).2
        rw [← h6]
        exact ⟨_, rfl, by simp [GD43.batched0, stage, stageNV]⟩
      have h10 := (hr 0).CP
      rw [k4, h8, k2, hcp] at h10
      cases h10 with
      | some h10 => rw [← length_ref h10.2, ← (hr 0).n, k5, h9]
  · refine value_nan P Q x p.2 i htab hev hr hbp (by rw [hlab]; exact hb) ((hks.mem b).2 hb) ((hks.mem p.2).2 hpl) (fun e => ?_)
      fun _ => (vary_quadr_cross P Q x p.2 i hbp (by rw [hlab]; exact hb)).ne
    exact absurd e hG

end Verif
